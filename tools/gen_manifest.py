#!/usr/bin/env python3
"""Regenerates MANIFEST.json from the table below."""
import json, os
here = os.path.dirname(os.path.abspath(__file__))
C = []
def claim(p, status, theorems, note):
    global C
    C = [c for c in C if c["property"] != p]
    C.append({"property": p, "status": status, "theorems": theorems, "note": note})
D = "Verif.Distribute."
G = "Verif.Grid."
claim("C01", "proved", [D+"distribute_exact", D+"distribute_aligned", D+"distribute_balanced",
      D+"doubleRounding_accurate", D+"fmaRounding_accurate"],
      "For every accurate rounding of the double products; IEEE double with and without fma is shown accurate.")
claim("C02", "proved", [D+"distribute_voxels_exact"], "")
claim("C03", "proved", [G+"voxel_bijective"], "")
claim("C04", "proved", [G+"neighbor_is_adjacent", G+"cellId_injective", G+"globalPos_injective",
      G+"neighbor_symmetric", G+"walled_neighbor"], "Periodic, absorbing and metal boxes.")
claim("C05", "proved", [G+"rank_index_inverse", G+"ports_match", G+"walled_ports_match", G+"size_grid_ids"],
      "Periodic, absorbing and metal boxes.")
exec(open(os.path.join(here, "claims_extra.py")).read()) if os.path.exists(os.path.join(here, "claims_extra.py")) else None
with open(os.path.join(here, "..", "MANIFEST.json"), "w") as f:
    json.dump({"claims": C}, f, indent=1); f.write("\n")
