import Verif.Distribute.Props
import Verif.Grid.Props
import Verif.Grid.Walled
import Verif.Grid.Ranges
import Verif.Field.SyncErr
import Verif.SortP.Props
import Verif.MoveP.Charge
import Verif.Boris.Props
import Verif.AdvanceP.Instances
import Verif.Util.Props
import Verif.Turnstile.Props
import Verif.Registry.Props
import Verif.Dispatch.Props
import Verif.Dispatch.Kinds
import Verif.Dispatch.KindsProps
import Verif.Rng.Props
import Verif.Rng.Stream
import Verif.Rng.Seed
import Verif.Rng.Perm
import Verif.Collision.Pairs
import Verif.Collision.Kernels
import Verif.Collision.Race
import Verif.EnergyP.Props
import Verif.Step.Run
import Verif.Deposit.Props
import Verif.SfInterface.ReduceProps
import Verif.SfInterface.UnloadPipe
import Verif.SfInterface.UnloadProps
import Verif.Hydro.Props
import Verif.Interp.Props
import Verif.Boundary.Sample
import Verif.Checkpt.Sample
import Verif.Inject.Sample
import Verif.Dump.Findings
import Verif.Dump.Particles
import Verif.Charge.Weak
import Verif.Charge.Rounds
import Verif.Charge.Support
import Verif.Charge.Push
import Verif.Charge.Chain
import Verif.Charge.Accum
import Verif.Charge.Periodic
import Verif.Charge.Currents
import Verif.Charge.Step
import Verif.Charge.Props
import Verif.Charge.Reach
import Verif.Charge.Whole
import Verif.Charge.Sample
import Verif.Torus.Spec
import Verif.Torus.Lemmas
import Verif.Torus.Props
import Verif.Torus.Sample
import Verif.Torus.Gauss
import Verif.Torus.GaussLemmas
import Verif.Torus.GaussProps
import Verif.Torus.GaussSample
import Verif.Torus.Run
import Verif.Torus.RunLemmas
import Verif.Torus.RunProps
import Verif.Torus.RunDivB
import Verif.Torus.RunSample
import Verif.Charge.Sizes
import Verif.Field.AbsorbProps
import Verif.Torus.Energy
import Verif.Torus.EnergyProps
import Verif.Torus.Courant
import Verif.Torus.EnergySample
import Verif.Torus.Ohmic
import Verif.Material.Model
import Verif.Material.Props
import Verif.Material.Stable
import Verif.Material.Sample
import Verif.Simd.Model
import Verif.Simd.Props
import Verif.Simd.Instances
import Verif.Simd.FieldModel
import Verif.Simd.FieldBlocks
import Verif.Simd.FieldProps
import Verif.Simd.FieldSame
import Verif.Simd.PartsModel
import Verif.Simd.PartsLemmas
import Verif.Simd.PartsProps
import Verif.Simd.ReduceModel
import Verif.Simd.ReduceProps
import Verif.Threads.Push
import Verif.Threads.Exchange
import Verif.Threads.Fields
import Verif.Threads.Model
import Verif.Threads.Lemmas
import Verif.Threads.Props
import Verif.Threads.Sample
import Verif.Threads.Restart
import Verif.Threads.RestartSample
import Verif.Single.Sample
import Verif.Normal.Sample
import Verif.Global.Spec
import Verif.Global.Walk
import Verif.Global.Sums
import Verif.Global.Exchange
import Verif.Global.Push
import Verif.Global.Moved
import Verif.Global.RunSpec
import Verif.Global.Props
import Verif.Global.Load
import Verif.Global.Current
import Verif.Global.Rms
import Verif.Global.Run
import Verif.Global.RunProps
import Verif.Global.Sample
import Verif.Global.Shift
import Verif.Global.ShiftProps
import Verif.Global.ShiftSample
import Verif.Global.Sources
import Verif.Global.SourcesProps
import Verif.Global.Uniform
import Verif.Global.UniformProps
import Verif.Global.Conj
import Verif.Global.ConjProps
import Verif.Global.Fork
import Verif.Global.Perm
import Verif.Global.PermParts
import Verif.Global.PermProps
import Verif.Global.Mirror
import Verif.Global.MirrorParts
import Verif.Global.MirrorProps
import Verif.Global.SymSample
import Verif.Global.SourcesSample
import Verif.Region.Model
import Verif.Region.Spec
import Verif.Region.Lemmas
import Verif.Region.Props
import Verif.Region.Ranks
import Verif.Region.Bc
import Verif.Region.Joins
import Verif.Region.Emitters
import Verif.Region.Sample
import Verif.Dump.Bytes
import Verif.Dump.BytesSpec
import Verif.Dump.BytesLemmas
import Verif.Dump.BytesProps
import Verif.Dump.Names
import Verif.Dump.NamesProps
import Verif.Dump.Header
import Verif.Dump.HeaderProps
import Verif.Dump.Text
import Verif.Dump.TextProps
import Verif.Dump.BytesSample
import Verif.Modify.Model
import Verif.Modify.Props
import Verif.Modify.Sample
import Verif.Checkpt.HaltProps
import Verif.Vector.Instr
import Verif.Vector.V4Sse
import Verif.Vector.V4Avx
import Verif.Vector.V4Avx2
import Verif.Vector.V4Neon
import Verif.Vector.V4Portable
import Verif.Vector.V8Avx
import Verif.Vector.V8Avx2
import Verif.Vector.V8Portable
import Verif.Vector.V16Avx512
import Verif.Vector.V16Portable
import Verif.Vector.Spec
import Verif.Vector.Lemmas
import Verif.Vector.FactsV4Sse
import Verif.Vector.FactsV4Avx
import Verif.Vector.FactsV4Avx2
import Verif.Vector.FactsV4Neon
import Verif.Vector.FactsV4Portable
import Verif.Vector.FactsV8Avx
import Verif.Vector.FactsV8Avx2
import Verif.Vector.FactsV8Portable
import Verif.Vector.FactsV16Avx512
import Verif.Vector.FactsV16Portable
import Verif.Vector.Props
import Verif.Vector.Layout
import Verif.Vector.Neon
import Verif.Vector.Sample
import Verif.Vector.Lane
import Verif.Vector.LV4Portable
import Verif.Vector.LV4Sse
import Verif.Vector.LV4Avx
import Verif.Vector.LV4Avx2
import Verif.Vector.LV4Neon
import Verif.Vector.LV8Portable
import Verif.Vector.LV8Avx
import Verif.Vector.LV8Avx2
import Verif.Vector.LV16Portable
import Verif.Vector.LV16Avx512
import Verif.Vector.LaneSpec
import Verif.Vector.LaneLemmas
import Verif.Vector.LOps
import Verif.Vector.LaneProps
import Verif.Vector.LaneSample
import Verif.Poynting.Model
import Verif.Poynting.Props
import Verif.Poynting.Sample
import Verif.Collide.Model
import Verif.Collide.Lemmas
import Verif.Collide.Lemmas2
import Verif.Collide.Lemmas3
import Verif.Collide.Props
import Verif.Collide.Sample
import Verif.Collide.Mean
import Verif.Collide.MeanLemmas
import Verif.Collide.MeanLemmas2
import Verif.Collide.MeanLemmas3
import Verif.Collide.MeanProps
import Verif.Collide.MeanBinary
import Verif.Collide.MeanSample
import Verif.Profile.Model
import Verif.Profile.Spec
import Verif.Profile.Lemmas
import Verif.Profile.Props
import Verif.Profile.Counts
import Verif.Profile.Sample
import Verif.Uniform.Model
import Verif.Uniform.Lemmas
import Verif.Uniform.Props
import Verif.Uniform.Closed
import Verif.Uniform.Sample
import Verif.Place.Model
import Verif.Place.Bits
import Verif.Place.Lemmas
import Verif.Place.Props
import Verif.Place.Sample
import Verif.Streak.Model
import Verif.Streak.Lemmas
import Verif.Streak.Axis
import Verif.Streak.Props
import Verif.Streak.Sample
import Verif.Streak.Push
import Verif.Streak.Two
import Verif.Streak.Double
import Verif.Streak.Speed
import Verif.Flow.Model
import Verif.Flow.Lemmas
import Verif.Flow.Props
import Verif.Flow.Sample
import Verif.Flow.RhoModel
import Verif.Flow.RhoProps
import Verif.Flow.SumModel
import Verif.Flow.Sum
import Verif.Drift.MarderModel
import Verif.Drift.Marder
import Verif.Drift.Model
import Verif.Drift.Props
import Verif.Drift.ElModel
import Verif.Drift.ElProps
import Verif.Drift.Quiet
import Verif.Gyro.Model
import Verif.Gyro.Lemmas
import Verif.Gyro.Props
import Verif.Gyro.Angle
import Verif.Gyro.SeenModel
import Verif.Gyro.Seen
import Verif.Gyro.Kick
import Verif.Gyro.Free
import Verif.Gyro.EnModel
import Verif.Gyro.Energy
import Verif.Gyro.FieldModel
import Verif.Gyro.FieldEn
