import Verif.Model.DataTree

/-! Generated by `tools/gen_surface.py`. -/

namespace WG

set_option maxRecDepth 100000

/-- For every row of `/repo/input_data/static_input/routing_order.csv`, in the order of that file, what the maps of drainage
directions, of units of lakes and reservoirs, of lakes and of reservoirs say about the cell of the row: 64 rows to a leaf,
each as 12 digits: drainage direction (1; 0 stands for -1), unit (4), bodies (2; 1 for a global lake, 2 for the area of a
reservoir or regulated lake, 4 for a storage capacity, 8 for a regulated lake), reservoir type (1), start year (4). -/
def surfaceData : DTree :=
 (.node 1024 (.node 512 (.node 256 (.node 128 (.node 64 (.node 32 (.node 16 (.node 8 (.node 4 (.node 2 (.node 1 (.leaf 500000000000500000000000500000000000500000000000500000000000500000000000500000000000500000000000500000000000500000000000500000000000500000000000500000000000500000000000500000000000500000000000500000000000500000000000500000000000500000000000500000000000500000000000500000000000500000000000500000000000500000000000500000000000500000000000500000000000500000000000500000000000500000000000500000000000500000000000500000000000500000000000500000000000500000000000500000000000500000000000500000000000500000000000500000000000500000000000500000000000500000000000500000000000600000000000500000000000500000000000500000000000500000000000500000000000500000000000500000000000500000000000500000000000500000000000500000000000500000000000500000000000500000000000500000000000500000000000)
 (.leaf 500000000000500000000000500000000000500000000000500000000000500000000000500000000000500000000000500000000000500000000000400000000000400000000000600000000000500000000000500000000000500000000000500000000000500000000000500000000000500000000000500000000000500000000000500000000000500000000000500000000000500000000000500000000000500000000000500000000000500000000000500000000000500000000000500000000000500000000000500000000000500000000000500000000000500000000000500000000000500000000000500000000000400000000000600000000000300000000000300000000000300000000000300000000000600000000000200000000000200000000000200000000000200000000000500000000000500000000000500000000000500000000000500000000000500000000000500000000000500000000000500000000000500000000000500000000000500000000000))
 (.node 1 (.leaf 500000000000500000000000500000000000500000000000500000000000500000000000400000000000600000000000500000000000500000000000500000000000400000000000600000000000400000000000600000000000700000000000300000000000200000000000600000000000900000000000800000000000600000000000400000000000300000000000200000000000600000000000600000000000500000000000500000000000500000000000500000000000500000000000500000000000500000000000500000000000500000000000500000000000500000000000500000000000500000000000500000000000500000000000500000000000500000000000500000000000500000000000500000000000500000000000500000000000500000000000500000000000500000000000500000000000500000000000500000000000500000000000500000000000500000000000500000000000500000000000500000000000500000000000600000000000500000000000)
 (.leaf 500000000000500000000000500000000000500000000000500000000000500000000000500000000000500000000000500000000000500000000000500000000000500000000000500000000000500000000000500000000000500000000000500000000000500000000000500000000000500000000000400000000000400000000000400000000000600000000000800000000000800000000000400000000000700000000000500000000000400000000000600000000000400000000000200000000000600000000000500000000000500000000000500000000000500000000000500000000000500000000000500000000000500000000000500000000000500000000000500000000000500000000000500000000000500000000000400000000000600000000000400000000000600000000000400000000000400000000000900000000000500000000000500000000000500000000000800000000000800000000000800000000000800000000000600000000000500000000000)))
 (.node 2 (.node 1 (.leaf 500000000000500000000000500000000000800000000000800000000000500000000000500000000000500000000000500000000000500000000000500000000000500000000000500000000000500000000000500000000000500000000000500000000000500000000000500000000000500000000000500000000000500000000000500000000000500000000000500000000000500000000000500000000000500000000000500000000000500000000000500000000000500000000000500000000000500000000000500000000000500000000000500000000000500000000000500000000000500000000000500000000000500000000000500000000000400000000000500000000000500000000000500000000000500000000000400000000000500000000000600000000000500000000000500000000000500000000000400000000000200000000000500000000000500000000000500000000000500000000000500000000000500000000000500000000000500000000000)
 (.leaf 500000000000500000000000500000000000500000000000500000000000500000000000500000000000500000000000800000000000800000000000700000000000700000000000400000000000500000000000600000000000700000000000900000000000900000000000800000000000400000000000600000000000200000000000600000000000500000000000500000000000500000000000500000000000500000000000600000000000800000000000700000000000500000000000500000000000500000000000500000000000500000000000500000000000500000000000500000000000500000000000500000000000500000000000500000000000500000000000500000000000500000000000500000000000500000000000500000000000500000000000500000000000500000000000500000000000500000000000500000000000500000000000500000000000500000000000500000000000500000000000500000000000500000000000500000000000500000000000))
 (.node 1 (.leaf 500000000000500000000000500000000000500000000000500000000000400000000000600000000000500000000000500000000000500000000000500000000000500000000000500000000000500000000000500000000000400000000000600000000000500000000000500000000000500000000000500000000000500000000000500000000000500000000000500000000000500000000000500000000000500000000000400000000000800000000000800000000000300000000000800000000000600000000000800000000000600000000000500000000000500000000000500000000000500000000000500000000000500000000000500000000000400000000000600000000000600000000000400000000000100000000000100000000000100000000000100000000000100000000000100000000000800000000000800000000000700000000000700000000000800000000000700000000000900000000000900000000000700000000000800000000000700000000000)
 (.leaf 700000000000700000000000700000000000600000000000600000000000500000000000500000000000500000000000500000000000500000000000500000000000600000000000509680000000509680000000509680000000500000000000500000000000500000000000500000000000500000000000500000000000500000000000500000000000500000000000500000000000500000000000500000000000500000000000500000000000500000000000500000000000500000000000500000000000500000000000500000000000500000000000500000000000500000000000500000000000500000000000500000000000500000000000500000000000500000000000500000000000500000000000500000000000500000000000500000000000500000000000500000000000500000000000500000000000500000000000500000000000500000000000500000000000500000000000500000000000500000000000500000000000500000000000500000000000500000000000))))
 (.node 4 (.node 2 (.node 1 (.leaf 500000000000500000000000500000000000500000000000500000000000500000000000500000000000500000000000500000000000500000000000500000000000500000000000500000000000500000000000500000000000500000000000500000000000500000000000500000000000500000000000500000000000500000000000400000000000600000000000600000000000500000000000500000000000500000000000500000000000500000000000500000000000500000000000500000000000500000000000500000000000500000000000500000000000500000000000400000000000400000000000600000000000400000000000800000000000800000000000200000000000200000000000600000000000500000000000500000000000500000000000500000000000500000000000500000000000500000000000500000000000400000000000700000000000400000000000700000000000900000000000800000000000900000000000800000000000800000000000)
 (.leaf 800000000000800000000000300000000000200000000000200000000000600000000000900000000000900000000000600000000000600000000000500000000000500000000000500000000000500000000000500000000000500000000000500000000000500000000000500000000000500000000000500000000000500000000000500000000000500000000000500000000000500000000000500000000000500000000000500000000000500000000000500000000000500000000000500000000000500000000000500000000000500000000000500000000000500000000000500000000000500000000000500000000000500000000000500000000000500000000000500000000000500000000000500000000000500000000000500000000000500000000000500000000000500000000000500000000000500000000000500000000000500000000000500000000000500000000000500000000000500000000000500000000000500000000000500000000000500000000000))
 (.node 1 (.leaf 500000000000500000000000500000000000500000000000500000000000500000000000500000000000500000000000500000000000500000000000500000000000500000000000500000000000500000000000500000000000500000000000500000000000500000000000500000000000500000000000500000000000500000000000500000000000400000000000200000000000400000000000100000000000900000000000900000000000600000000000500000000000500000000000500000000000400000000000600000000000500000000000400000000000300000000000400000000000600000000000500000000000500000000000500000000000500000000000500000000000500000000000500000000000500000000000700000000000700000000000700000000000700000000000700000000000700000000000900000000000800000000000600000000000800000000000800000000000300000000000300000000000300000000000300000000000200000000000)
 (.leaf 200000000000200000000000200000000000200000000000200000000000200000000000800000000000800000000000800000000000600000000000500000000000500000000000500000000000500000000000500000000000500000000000500000000000500000000000500000000000500000000000500000000000500000000000500000000000500000000000500000000000500000000000500000000000500000000000500000000000500000000000500000000000500000000000500000000000500000000000500000000000500000000000500000000000500000000000500000000000500000000000500000000000500000000000500000000000500000000000500000000000500000000000500000000000500000000000500000000000500000000000500000000000500000000000500000000000500000000000500000000000500000000000500000000000500000000000500000000000500000000000500000000000500000000000500000000000500000000000)))
 (.node 2 (.node 1 (.leaf 500000000000500000000000500000000000500000000000500000000000500000000000500000000000500000000000500000000000500000000000500000000000500000000000500000000000500000000000500000000000500000000000500000000000500000000000500000000000500000000000400000000000600000000000400000000000500000000000500000000000500000000000500000000000500000000000500000000000400000000000600000000000400000000000600000000000500000000000500000000000500000000000500000000000500000000000500000000000500000000000500000000000500000000000500000000000700000000000700000000000700000000000700000000000700000000000700000000000700000000000800000000000800000000000600000000000800000000000800000000000600000000000500000000000500000000000500000000000500000000000500000000000500000000000500000000000500000000000)
 (.leaf 500000000000500000000000500000000000800000000000400000000000600000000000400000000000600000000000600000000000500000000000500000000000500000000000500000000000500000000000500000000000500000000000500000000000500000000000500000000000500000000000500000000000500000000000500000000000500000000000500000000000500000000000500000000000500000000000500000000000500000000000500000000000500000000000500000000000500000000000500000000000500000000000500000000000500000000000500000000000500000000000500000000000500000000000500000000000500000000000500000000000500000000000500000000000500000000000500000000000500000000000500000000000500000000000400000000000600000000000500000000000500000000000500000000000500000000000500000000000500000000000500000000000500000000000500000000000500000000000))
 (.node 1 (.leaf 400000000000300000000000300000000000600000000000500000000000500000000000500000000000500000000000500000000000500000000000500000000000500000000000500000000000500000000000400000000000600000000000500000000000200000000000600000000000500000000000500000000000500000000000500000000000500000000000500000000000500000000000500000000000700000000000700000000000700000000000700000000000700000000000700000000000700000000000700000000000800000000000800000000000700000000000700000000000700000000000700000000000700000000000700000000000800000000000600000000000800000000000800000000000800000000000600000000000800000000000600000000000800000000000800000000000800000000000900000000000600000000000500000000000500000000000500000000000500000000000500000000000500000000000500000000000500000000000)
 (.leaf 500000000000500000000000500000000000500000000000600000000000400000000000500000000000400000000000600000000000500000000000500000000000500000000000500000000000500000000000500000000000500000000000500000000000500000000000500000000000500000000000500000000000500000000000500000000000500000000000500000000000500000000000500000000000400000000000200000000000900000000000800000000000800000000000500000000000600000000000500000000000500000000000500000000000500000000000500000000000500000000000500000000000500000000000500000000000500000000000500000000000500000000000500000000000500000000000500000000000500000000000500000000000500000000000600000000000500000000000500000000000500000000000500000000000500000000000500000000000500000000000500000000000500000000000500000000000500000000000)))))
 (.node 8 (.node 4 (.node 2 (.node 1 (.leaf 500000000000500000000000500000000000500000000000500000000000500000000000500000000000500000000000500000000000400000000000800000000000100000000000400000000000600000000000600000000000500000000000500000000000500000000000500000000000500000000000200000000000200000000000400000000000200000000000100000000000800000000000200000000000200000000000100000000000200000000000800000000000200000000000200000000000100000000000200000000000100000000000100000000000800000000000800000000000800000000000800000000000700000000000800000000000700000000000700000000000700000000000700000000000700000000000700000000000600000000000900000000000800000000000800000000000600000000000600000000000800000000000800000000000800000000000800000000000800000000000300000000000300000000000200000000000200000000000)
 (.leaf 200000000000200000000000500000000000500000000000500000000000500000000000500000000000500000000000500000000000500000000000500000000000500000000000500000000000500000000000500000000000500000000000400000000000500000000000500000000000500000000000500000000000500000000000500000000000500000000000500000000000500000000000400000000000500000000000500000000000500000000000500000000000500000000000500000000000500000000000500000000000500000000000500000000000500000000000500000000000500000000000500000000000500000000000500000000000500000000000400000000000600000000000500000000000500000000000500000000000500000000000500000000000500000000000500000000000500000000000500000000000500000000000500000000000500000000000500000000000500000000000500000000000500000000000500000000000500000000000))
 (.node 1 (.leaf 500000000000500000000000500000000000500000000000500000000000500000000000500000000000500000000000500000000000500000000000500000000000500000000000500000000000500000000000500000000000400000000000500000000000200000000000200000000000600000000000500000000000500000000000500000000000500000000000500000000000500000000000500000000000500000000000500000000000500000000000400000000000700000000000200000000000800000000000200000000000200000000000800000000000700000000000800000000000700000000000700000000000800000000000800000000000700000000000700000000000800000000000800000000000800000000000800000000000800000000000800000000000800000000000700000000000800000000000800000000000800000000000700000000000800000000000900000000000700000000000800000000000700000000000300000000000200000000000)
 (.leaf 200000000000200000000000600000000000500000000000500000000000500000000000500000000000500000000000500000000000500000000000500000000000500000000000500000000000500000000000400000000000500000000000500000000000500000000000500000000000500000000000500000000000500000000000500000000000500000000000500000000000500000000000500000000000500000000000500000000000500000000000500000000000500000000000500000000000500000000000500000000000500000000000500000000000500000000000500000000000500000000000500000000000500000000000500000000000500000000000500000000000500000000000500000000000500000000000500000000000500000000000500000000000500000000000500000000000500000000000500000000000500000000000500000000000500000000000500000000000500000000000500000000000400000000000800000000000500000000000)))
 (.node 2 (.node 1 (.leaf 500000000000400000000000600000000000500000000000500000000000500000000000500000000000500000000000500000000000500000000000500000000000500000000000500000000000500000000000500000000000500000000000500000000000500000000000500000000000500000000000700000000000700000000000700000000000700000000000700000000000700000000000200000000000700000000000200000000000200000000000200000000000200000000000100000000000200000000000200000000000200000000000200000000000200000000000100000000000100000000000200000000000200000000000100000000000100000000000100000000000100000000000100000000000800000000000800000000000800000000000700000000000700000000000700000000000700000000000700000000000700000000000800000000000600000000000500000000000500000000000500000000000500000000000500000000000500000000000)
 (.leaf 500000000000500000000000500000000000500000000000500000000000500000000000500000000000500000000000500000000000500000000000500000000000500000000000500000000000500000000000500000000000500000000000500000000000500000000000500000000000500000000000500000000000400000000000800000000000500000000000500000000000500000000000400000000000500000000000500000000000500000000000500000000000500000000000500000000000500000000000500000000000500000000000500000000000500000000000500000000000500000000000500000000000500000000000500000000000500000000000500000000000500000000000500000000000500000000000500000000000500000000000500000000000500000000000500000000000500000000000500000000000500000000000500000000000500000000000500000000000500000000000500000000000500000000000500000000000500000000000))
 (.node 1 (.leaf 500000000000100000000000700000000000700000000000300000000000200000000000600000000000600000000000600000000000300000000000200000000000500000000000200000000000100000000000600000000000500000000000500000000000500000000000500000000000500000000000500000000000500000000000500000000000500000000000400000000000200000000000200000000000700000000000800000000000700000000000400000000000200000000000200000000000100000000000200000000000400000000000200000000000200000000000800000000000800000000000800000000000800000000000700000000000700000000000800000000000900000000000700000000000700000000000800000000000800000000000600000000000500000000000500000000000500000000000510150000000500000000000500000000000500000000000500000000000500000000000500000000000500000000000500000000000500000000000)
 (.leaf 500000000000500000000000500000000000500000000000500000000000500000000000500000000000500000000000500000000000500000000000500000000000500000000000400000000000900000000000800000000000800000000000900000000000600000000000500000000000500000000000500000000000500000000000500000000000500000000000500000000000500000000000500000000000500000000000500000000000500000000000400000000000500000000000500000000000500000000000500000000000500000000000500000000000500000000000500000000000500000000000500000000000500000000000500000000000500000000000500000000000500000000000400000000000600000000000500000000000500000000000500000000000500000000000500000000000500000000000500000000000500000000000400000000000600000000000500000000000500000000000500000000000500000000000500000000000500000000000))))
 (.node 4 (.node 2 (.node 1 (.leaf 500000000000500000000000400000000000600000000000500000000000500000000000500000000000500000000000500000000000500000000000500000000000500000000000500000000000500000000000500000000000500000000000500000000000500000000000500000000000500000000000500000000000500000000000500000000000500000000000500000000000500000000000500000000000500000000000500000000000500000000000500000000000500000000000500000000000100000000000400000000000400000000000200000000000400000000000200000000000100000000000800000000000800000000000800000000000700000000000700000000000700000000000900000000000700000000000800000000000600000000000800000000000800000000000600000000000500000000000500000000000500000000000500000000000500000000000500000000000500000000000500000000000500000000000500000000000500000000000)
 (.leaf 500000000000500000000000500000000000500000000000500000000000500000000000500000000000500000000000500000000000500000000000500000000000500000000000500000000000500000000000500000000000500000000000500000000000500000000000500000000000500000000000500000000000500000000000500000000000500000000000500000000000500000000000500000000000505970000000800000000000600000000000800000000000600000000000600000000000800000000000600000000000600000000000500000000000500000000000500000000000500000000000500000000000500000000000500000000000500000000000500000000000500000000000500000000000500000000000500000000000500000000000500000000000500000000000500000000000500000000000500000000000500000000000400000000000600000000000500000000000500000000000400000000000500000000000500000000000500000000000))
 (.node 1 (.leaf 600000000000500000000000500000000000500000000000500000000000500000000000500000000000500000000000500000000000400000000000600000000000500000000000500000000000500000000000400000000000600000000000500000000000500000000000500000000000500000000000500000000000500000000000500000000000500000000000500000000000500000000000500000000000500000000000500000000000500000000000500000000000500000000000500000000000500000000000500000000000100000000000400000000000100000000000100000000000400000000000400000000000200000000000400000000000100000000000800000000000700000000000700000000000700000000000900000000000700000000000800000000000700000000000800000000000900000000000800000000000600000000000600000000000600000000000500000000000500000000000500000000000500000000000800000000000700000000000)
 (.leaf 200000000000500000000000500000000000500000000000500000000000500000000000500000000000500000000000500000000000500000000000500000000000500000000000500000000000500000000000400000000000600000000000500000000000500000000000500000000000600000000000400000000000600000000000400000000000400000000000800000000000400000000000400000000000600000000000500000000000500000000000500000000000500000000000500000000000400000000000700000000000200000000000500000000000500000000000400000000000600000000000501180000000501180000000500000000000500000000000500000000000500000000000500000000000500000000000500000000000500000000000500000000000500000000000500000000000500000000000500000000000500000000000500000000000500000000000500000000000500000000000500000000000400000000000500000000000200000000000)))
 (.node 2 (.node 1 (.leaf 200000000000500000000000200000000000500000000000200000000000600000000000500000000000500000000000500000000000500000000000500000000000500000000000500000000000500000000000500000000000500000000000500000000000500000000000400000000000600000000000400000000000400000000000600000000000400000000000600000000000400000000000700000000000300000000000200000000000200000000000800000000000200000000000800000000000600000000000500000000000500000000000500000000000100000000000400000000000400000000000200000000000200000000000400000000000400000000000700000000000700000000000700000000000900000000000800000000000800000000000800000000000800000000000700000000000800000000000700000000000200000000000100000000000900000000000800000000000800000000000800000000000800000000000200000000000800000000000)
 (.leaf 600000000000500000000000500000000000500000000000500000000000500000000000500000000000500000000000500000000000500000000000500000000000500000000000400000000000700000000000200000000000300000000000600000000000500000000000500000000000500000000000500000000000500000000000500000000000500000000000500000000000400000000000700000000000600000000000700000000000900000000000800000000000600000000000400000000000400000000000200380000000200380000000600380000000400000000000400000000000100000000000200000000000600000000000600000000000500000000000500000000000500000000000500000000000400000000000300000000000200000000000200000000000200000000000501180000000501180000000501180000000501180000000500000000000500000000000500000000000500000000000500000000000500000000000500000000000500000000000))
 (.node 1 (.leaf 500000000000500000000000500000000000500000000000500000000000500000000000500000000000500000000000500000000000400000000000600000000000500000000000500000000000500000000000500000000000500000000000500000000000500000000000500000000000500000000000500000000000500000000000500000000000500000000000500000000000500000000000500000000000500000000000500000000000500000000000500000000000500000000000500000000000500000000000500000000000500000000000500000000000500000000000500000000000500000000000500000000000500000000000500000000000500000000000500000000000500000000000500000000000500000000000500000000000500000000000500000000000500000000000500000000000100000000000400000000000200000000000100000000000400000000000800000000000800000000000800000000000700000000000700000000000700000000000)
 (.leaf 800000000000600000000000200000000000200000000000200000000000200000000000200000000000200000000000200000000000200000000000200000000000600000000000600000000000200000000000600000000000500000000000500000000000500000000000500000000000500000000000500000000000500000000000500000000000500000000000400000000000600000000000600000000000500000000000500000000000500000000000500000000000500000000000500000000000500000000000500000000000500000000000400000000000100000000000700000000000400000000000600000000000400000000000300000000000600000000000600380000000605030000000300000000000300000000000500000000000500000000000500000000000500000000000500000000000500000000000500000000000500000000000500000000000500000000000500000000000500000000000500000000000500000000000500000000000500000000000))))))
 (.node 16 (.node 8 (.node 4 (.node 2 (.node 1 (.leaf 500000000000500000000000500000000000500000000000500000000000500000000000500000000000500000000000500000000000500000000000500000000000500000000000500000000000500000000000500000000000500000000000500000000000500000000000500000000000500000000000500000000000500000000000500000000000500000000000500000000000500000000000500000000000500000000000500000000000500000000000500000000000500000000000500000000000500000000000500000000000500000000000500000000000500000000000500000000000400000000000100000000000100000000000100000000000400000000000200000000000700000000000700000000000700000000000700000000000800000000000700000000000700000000000600000000000600000000000300000000000200000000000500000000000500000000000500000000000500000000000500000000000500000000000500000000000500000000000)
 (.leaf 500000000000500000000000400000000000600000000000600000000000500000000000500000000000500000000000500000000000500000000000500000000000500000000000500000000000400000000000100000000000600000000000700000000000400000000000400000000000600000000000600000000000800380000000800380000000400380000000400000000000600000000000403720000000500000000000500000000000500000000000500000000000500000000000500000000000500000000000500000000000500000000000500000000000500000000000400000000000200000000000100000000000800000000000600000000000500000000000800000000000700000000000600000000000500000000000500000000000500000000000500000000000500000000000500000000000500000000000500000000000500000000000500000000000500000000000500000000000500000000000500000000000500000000000500000000000500000000000))
 (.node 1 (.leaf 500000000000400000000000500000000000500000000000500000000000500000000000500000000000500000000000500000000000500000000000500000000000500000000000500000000000500000000000500000000000500000000000500000000000500000000000500000000000500000000000500000000000500000000000500000000000500000000000500000000000400000000000200000000000400000000000800000000000800000000000800000000000800000000000700000000000700000000000700000000000700000000000700000000000300000000000600000000000400000000000600000000000500000000000600000000000500000000000500000000000500000000000500000000000500000000000400000000000300000000000600000000000500000000000500000000000500000000000500000000000500000000000500000000000500000000000500000000000500000000000500000000000500000000000500000000000400000000000)
 (.leaf 600000000000600000000000400000000000300000000000400000000000200000000000800000000000422840000000622840000000500000000000500000000000500000000000500000000000500000000000500000000000500000000000500000000000500000000000500000000000500000000000500000000000500000000000500000000000500000000000500000000000500000000000500000000000500000000000500000000000500000000000500000000000500000000000500000000000500000000000500000000000500000000000500000000000500000000000500000000000400000000000400000000000600000000000500000000000500000000000500000000000500000000000500000000000500000000000500000000000500000000000500000000000500000000000500000000000500000000000500000000000400000000000600000000000500000000000500000000000500000000000400000000000800000000000300000000000200000000000)))
 (.node 2 (.node 1 (.leaf 100000000000600000000000500000000000400000000000800000000000600000000000500000000000500000000000500000000000400000000000800000000000300000000000600000000000500000000000400000000000100000000000800000000000800000000000600000000000500000000000500000000000500000000000500000000000400000000000400000000000400000000000400000000000200000000000100000000000100000000000100000000000100000000000800000000000800000000000800000000000800000000000800000000000800000000000700000000000800000000000700000000000700000000000700000000000700000000000700000000000800000000000700000000000300000000000800000000000800000000000600000000000800000000000800000000000800000000000600000000000500000000000500000000000500000000000500000000000500000000000500000000000500000000000500000000000500000000000)
 (.leaf 500000000000500000000000500000000000500000000000500000000000400000000000600000000000500000000000500000000000500000000000500000000000500000000000500000000000500000000000500000000000500000000000500000000000500000000000500000000000500000000000400000000000600000000000400000000000800000000000600000000000200000000000400000000000300000000000600000000000400000000000600000000000109050000000400000000000600000000000900000000000800000000000900000000000600000000000500000000000500000000000500000000000500000000000500000000000511870000000511870000000400000000000300000000000700000000000400000000000600000000000500000000000500000000000500000000000500000000000500000000000500000000000500000000000800000000000800000000000500000000000500000000000500000000000500000000000500000000000))
 (.node 1 (.leaf 500000000000500000000000500000000000500000000000500000000000500000000000500000000000500000000000500000000000500000000000400000000000400000000000600000000000800000000000500000000000500000000000500000000000500000000000500000000000800000000000800000000000800000000000800000000000500000000000500000000000500000000000500000000000500000000000500000000000500000000000500000000000400000000000800000000000600000000000500000000000500000000000500000000000500000000000500000000000500000000000400000000000600000000000410060000000600000000000500000000000500000000000503930000000603930000000500000000000500000000000500000000000500000000000400000000000600000000000400000000000400000000000600000000000500000000000500000000000500000000000500000000000500000000000500000000000500000000000)
 (.leaf 500000000000500000000000500000000000400000000000700000000000700000000000700000000000700000000000700000000000800000000000200000000000100000000000200000000000200000000000100000000000200000000000200000000000200000000000400000000000400000000000200000000000200000000000200000000000100000000000100000000000100000000000200000000000300000000000200000000000200000000000200000000000600000000000300000000000200000000000200000000000100000000000600000000000600000000000600000000000500000000000500000000000500000000000500000000000500000000000500000000000500000000000500000000000500000000000500000000000500000000000500000000000400000000000600000000000500000000000500000000000500000000000500000000000500000000000500000000000500000000000500000000000500000000000500000000000500000000000))))
 (.node 4 (.node 2 (.node 1 (.leaf 500000000000500000000000400000000000600000000000800000000000400000000000600000000000400000000000600000000000400000000000400000000000600000000000400000000000600000000000500000000000611870000000800000000000600000000000400000000000600000000000500000000000500000000000500000000000500000000000500000000000400000000000800000000000900000000000900000000000600000000000500000000000500000000000505700000000505700000000500000000000500000000000500000000000500000000000500000000000500000000000500000000000700000000000600000000000500000000000500000000000500000000000400000000000800000000000900000000000800000000000500000000000400000000000700000000000400000000000500000000000400000000000900000000000600000000000500000000000500000000000500000000000400000000000200000000000800000000000)
 (.leaf 200000000000100000000000600000000000500000000000400000000000600000000000400000000000600000000000500000000000400000000000600000000000500000000000500000000000400000000000800000000000500000000000500000000000500000000000500000000000500000000000500000000000500000000000500000000000400000000000200000000000200000000000200000000000100000000000200000000000200000000000200000000000200000000000200000000000200000000000200000000000100000000000200000000000100000000000100000000000200000000000600000000000200000000000300000000000200000000000200000000000200000000000600000000000200000000000500000000000500000000000600000000000500000000000500000000000500000000000500000000000500000000000500000000000500000000000400000000000300000000000600000000000400000000000400000000000900000000000))
 (.node 1 (.leaf 600000000000500000000000500000000000500000000000500000000000500000000000500000000000500000000000500000000000500000000000500000000000500000000000500000000000400000000000600000000000400000000000600000000000400000000000600000000000400000000000400000000000600000000000402460000000602460000000600000000000400000000000600000000000600000000000600000000000400000000000400000000000900000000000900000000000600000000000400000000000600000000000400000000000400000000000800000000000400000000000600000000000600000000000400000000000500000000000500000000000500000000000500000000000800000000000700000000000605700000000501570000000504470100000507940100000507940000000507940000000500000000000500000000000505050000000505050000000500000000000500000000000500000000000500000000000500000000000)
 (.leaf 400000000000800000000000700000000000500000000000500000000000500000000000500000000000500000000000400000000000400000000000400000000000600000000000800000000000200000000000400000000000600000000000800000000000400000000000200000000000600000000000500000000000600000000000500000000000500000000000500000000000500000000000500000000000500000000000500000000000500000000000500000000000400000000000800000000000200000000000600000000000500000000000500000000000400000000000900000000000800000000000400000000000700000000000900000000000800000000000500000000000400000000000600000000000500000000000500000000000500000000000500000000000500000000000500000000000500000000000500000000000500000000000500000000000500000000000500000000000500000000000500000000000400000000000200000000000200000000000)))
 (.node 2 (.node 1 (.leaf 200000000000200000000000500000000000500000000000500000000000510980000000510980000000600000000000100000000000600000000000500000000000500000000000500000000000500000000000500000000000400000000000100000000000600000000000400000000000600000000000500000000000500000000000500000000000500000000000600000000000500000000000500000000000500000000000500000000000400000000000600000000000900000000000500000000000500000000000500000000000600000000000400000000000900000000000400000000000300000000000900000000000800000000000700000000000100000000000300000000000200000000000400000000000200000000000600000000000400000000000400000000000100000000000400000000000600000000000400000000000100000000000100000000000200000000000600000000000800000000000600000000000600000000000500000000000500000000000)
 (.leaf 500000000000500000000000500000000000500000000000500000000000500000000000500000000000500000000000400000000000600000000000500000000000400000000000600000000000500000000000500000000000500000000000500000000000500000000000500000000000500000000000500000000000500000000000500000000000500000000000500000000000500000000000500000000000500000000000500000000000500000000000500000000000500000000000500000000000500000000000500000000000500000000000400000000000700000000000600000000000600000000000404950000000500000000000500000000000500000000000500000000000500000000000600000000000500000000000500000000000500000000000500000000000400000000000500000000000500000000000500000000000400000000000200000000000210490000000400000000000600000000000500000000000500000000000500000000000500000000000))
 (.node 1 (.leaf 500000000000500000000000500000000000500000000000500000000000500000000000500000000000500000000000500000000000500000000000500000000000500000000000400000000000200000000000200000000000400000000000100000000000400000000000200000000000200000000000200000000000400000000000800000000000900000000000900000000000900000000000900000000000600000000000700000000000600000000000800000000000600000000000300000000000600000000000500000000000400000000000600000000000500000000000500000000000500000000000500000000000500000000000500000000000500000000000400000000000600000000000500000000000500000000000400000000000400000000000600000000000500000000000400000000000600000000000500000000000500000000000500000000000700000000000208380100000108380000000400000000000800000000000600000000000500000000000)
 (.leaf 600000000000600000000000400000000000200000000000200000000000600000000000600000000000400000000000800000000000800000000000400000000000600000000000400000000000400000000000600000000000600000000000900000000000800000000000900000000000800000000000600000000000100000000000600000000000400000000000700000000000600000000000600000000000500000000000400000000000500000000000400000000000900000000000900000000000900000000000900000000000900000000000800000000000700000000000600000000000900000000000600000000000500000000000500000000000500000000000500000000000500000000000500000000000500000000000500000000000500000000000500000000000500000000000500000000000505160000000505160000000500000000000500000000000500000000000500000000000500000000000501600000000501600000000500000000000500000000000)))))
 (.node 8 (.node 4 (.node 2 (.node 1 (.leaf 500000000000500000000000500000000000500000000000500000000000500000000000500000000000500000000000500000000000500000000000500000000000408950000000400000000000600000000000400000000000804950000000704950000000600000000000500000000000500000000000500000000000500000000000800000000000700000000000200000000000600000000000500000000000500000000000500000000000500000000000500000000000200000000000200000000000100000000000600000000000400000000000600000000000222350000000500000000000400000000000400000000000200000000000404410000000604410000000500000000000500000000000500000000000500000000000512510000000500000000000500000000000500000000000500000000000500000000000500000000000500000000000500000000000500000000000500000000000400000000000400000000000200000000000200000000000200000000000)
 (.leaf 200000000000200000000000300000000000200000000000200000000000900000000000800000000000900000000000800000000000800000000000900000000000900000000000600000000000600000000000500000000000500000000000500000000000500000000000500000000000500000000000500000000000200000000000600000000000500000000000500000000000500000000000500000000000500000000000500000000000500000000000500000000000500000000000500000000000500000000000500000000000500000000000500000000000500000000000500000000000500000000000500000000000500000000000500000000000500000000000500000000000500000000000500000000000500000000000500000000000500000000000500000000000500000000000400000000000600000000000600000000000500000000000500000000000600000000000300000000000700000000000400000000000800000000000200000000000200000000000))
 (.node 1 (.leaf 200000000000600000000000500000000000500000000000500000000000800000000000100000000000400000000000600000000000400000000000600000000000800000000000800000000000600000000000900000000000800000000000800000000000400000000000600000000000900000000000600000000000400000000000400000000000100000000000800000000000600000000000400000000000600000000000400000000000600000000000400000000000600000000000600000000000400000000000400000000000900000000000800000000000800000000000700000000000400000000000600000000000500000000000500000000000500000000000500000000000600000000000400000000000500000000000511760000000500000000000500000000000500000000000500000000000500000000000500000000000500000000000500000000000505160000000600000000000900000000000800000000000600000000000800000000000901600000000)
 (.leaf 801600000000600000000000500000000000500000000000500000000000500000000000500000000000500000000000500000000000500000000000500000000000500000000000500000000000500000000000500000000000500000000000500000000000500000000000500000000000500000000000500000000000500000000000500000000000500000000000400000000000621570000000821570000000622760000000422760000000900000000000600000000000800000000000800000000000500000000000500000000000500000000000500000000000500000000000400000000000700000000000600000000000500000000000500000000000500000000000500000000000400000000000600000000000500000000000500000000000500000000000500000000000608300000000500000000000400000000000604410000000612510000000500000000000500000000000500000000000500000000000500000000000500000000000500000000000500000000000)))
 (.node 2 (.node 1 (.leaf 500000000000500000000000500000000000500000000000400000000000200000000000200000000000200000000000200000000000200000000000300000000000300000000000200000000000200000000000100000000000100000000000200000000000100000000000200000000000600000000000500000000000500000000000500000000000500000000000500000000000500000000000500000000000500000000000500000000000500000000000500000000000500000000000500000000000500000000000500000000000500000000000500000000000500000000000500000000000400000000000600000000000400000000000600000000000500000000000500000000000500000000000500000000000500000000000500000000000500000000000500000000000500000000000500000000000423020100000623020000000500000000000400000000000600000000000400000000000700000000000800000000000600000000000500000000000400000000000)
 (.leaf 200000000000600000000000401770000000800000000000800000000000800000000000800000000000800000000000800000000000700000000000800000000000700000000000900000000000800000000000600000000000800000000000400000000000800000000000800000000000400000000000600000000000400000000000400000000000600000000000600000000000200000000000200000000000900000000000600000000000600000000000800000000000800000000000200000000000700000000000300000000000200000000000800000000000200000000000400000000000800000000000600000000000800000000000400000000000900000000000600000000000800000000000800000000000700000000000600000000000800000000000800000000000300000000000600000000000400000000000600000000000600000000000600000000000600000000000400000000000900000000000800000000000600000000000600000000000800000000000))
 (.node 1 (.leaf 906990000000811760000000500000000000500000000000500000000000500000000000800000000000700000000000400000000000800000000000600000000000400000000000900000000000600000000000800000000000600000000000800000000000400000000000900000000000800000000000500000000000400000000000500000000000500000000000500000000000500000000000500000000000500000000000500000000000500000000000500000000000501190000000500000000000500000000000500000000000500000000000500000000000400000000000500000000000500000000000500000000000500000000000500000000000500000000000500000000000500000000000500000000000500000000000400000000000900000000000800000000000608520000000300000000000200000000000800000000000600000000000205390000000700000000000200000000000600000000000500000000000500000000000500000000000500000000000)
 (.leaf 500000000000500000000000500000000000500000000000500000000000500000000000500000000000500000000000600000000000500000000000500000000000500000000000500000000000500000000000500000000000500000000000500000000000500000000000500000000000500000000000500000000000500000000000500000000000500000000000500000000000500000000000500000000000500000000000400000000000209810000000400000000000200000000000100000000000900000000000600000000000600000000000500000000000500000000000500000000000500000000000500000000000500000000000500000000000400000000000600000000000500000000000500000000000500000000000500000000000700000000000700000000000400000000000200000000000200000000000200000000000200000000000300000000000200000000000200000000000200000000000600000000000900000000000800000000000200000000000))))
 (.node 4 (.node 2 (.node 1 (.leaf 800000000000600000000000800000000000800000000000700000000000600000000000500000000000500000000000500000000000500000000000500000000000500000000000500000000000500000000000500000000000500000000000500000000000500000000000500000000000400000000000900000000000800000000000600000000000900000000000600000000000500000000000500000000000500000000000500000000000500000000000500000000000500000000000500000000000500000000000500000000000500000000000500000000000500000000000400000000000423020000000608770000000600000000000400000000000600000000000200000000000200000000000200000000000300000000000600000000000400000000000900000000000900000000000800000000000400000000000700000000000601770000000401770000000400000000000400000000000600000000000900000000000600000000000600000000000400000000000)
 (.leaf 400000000000700000000000400000000000400000000000300000000000600000000000300000000000600000000000400000000000600000000000400000000000400000000000800000000000600000000000400000000000900000000000600000000000400000000000600000000000900000000000800000000000700000000000200000000000300000000000200000000000400000000000200000000000600000000000600000000000400000000000900000000000800000000000600000000000200000000000200000000000200000000000600000000000600000000000500000000000500000000000500000000000500000000000500000000000500000000000500000000000500000000000500000000000500000000000500000000000500000000000500000000000500000000000400000000000500000000000500000000000500000000000500000000000500000000000500000000000500000000000500000000000500000000000500000000000500000000000))
 (.node 1 (.leaf 500000000000600000000000400000000000600000000000600000000000600000000000800000000000900000000000900000000000800000000000900000000000900000000000800000000000800000000000400000000000600000000000500000000000500000000000500000000000500000000000500000000000500000000000501190000000601190000000400000000000600000000000400000000000600000000000500000000000400000000000500000000000400000000000900000000000800000000000500000000000500000000000500000000000500000000000500000000000500000000000500000000000400000000000600000000000402350000000800000000000500000000000500000000000500000000000500000000000500000000000500000000000500000000000500000000000500000000000500000000000400000000000800000000000500000000000500000000000500000000000500000000000500000000000400000000000500000000000)
 (.leaf 500000000000500000000000500000000000500000000000400000000000600000000000500000000000500000000000500000000000500000000000500000000000500000000000500000000000500000000000409810000000400000000000300000000000400000000000600000000000500000000000500000000000500000000000500000000000500000000000500000000000500000000000500000000000500000000000500000000000500000000000500000000000200000000000100000000000600000000000400000000000600000000000300000000000200000000000200000000000500000000000500000000000500000000000500000000000500000000000500000000000500000000000500000000000500000000000500000000000500000000000500000000000500000000000500000000000600000000000700000000000800000000000400000000000600000000000600000000000600000000000201140000000101140000000800000000000900000000000)))
 (.node 2 (.node 1 (.leaf 900000000000900000000000600000000000500000000000500000000000500000000000500000000000500000000000500000000000500000000000500000000000500000000000500000000000400000000000800000000000600000000000500000000000500000000000500000000000500000000000212890000000400000000000600000000000500000000000500000000000500000000000500000000000500000000000400000000000200000000000400000000000700000000000100000000000600000000000700000000000401770000000400000000000600000000000412030000000700000000000600000000000800000000000900000000000800000000000300000000000200000000000600000000000600000000000400000000000600000000000300000000000200000000000200000000000600000000000100000000000600000000000400000000000800000000000400000000000600000000000600000000000600000000000600000000000400000000000)
 (.leaf 400000000000800000000000700000000000600000000000600000000000600000000000400000000000200000000000600000000000200000000000200000000000300000000000600000000000400000000000200000000000600000000000308830100000608830000000400000000000600000000000800000000000600000000000600000000000805890000000405890000000400000000000700000000000800000000000700000000000400000000000600000000000600000000000600000000000500000000000500000000000400000000000600000000000400000000000600000000000510870000000500000000000504180000000500000000000500000000000500000000000500000000000400000000000900000000000800000000000900000000000800000000000900000000000800000000000600000000000400000000000900000000000600000000000800000000000800000000000800000000000400000000000400000000000900000000000800000000000))
 (.node 1 (.leaf 200000000000400000000000200000000000600000000000900000000000600000000000800000000000600000000000800000000000500000000000601190000000801190000000800000000000400000000000400000000000400000000000200000000000600000000000400000000000800000000000400000000000600000000000400000000000800000000000800000000000800000000000500000000000500000000000500000000000500000000000500000000000500000000000500000000000500000000000513050100000513050000000513050000000500000000000506840000000500000000000500000000000500000000000500000000000500000000000500000000000500000000000500000000000500000000000500000000000500000000000500000000000500000000000500000000000500000000000500000000000500000000000500000000000500000000000500000000000500000000000500000000000500000000000500000000000500000000000)
 (.leaf 500000000000500000000000500000000000500000000000400000000000600000000000400000000000500000000000500000000000500000000000400000000000600000000000500000000000500000000000500000000000500000000000500000000000500000000000500000000000400000000000200000000000600000000000400000000000600000000000500000000000500000000000500000000000500000000000500000000000400000000000400000000000200000000000200000000000100000000000600000000000600000000000900000000000800000000000400000000000600000000000200000000000200000000000500000000000500000000000500000000000500000000000500000000000500000000000500000000000500000000000500000000000500000000000500000000000500000000000400000000000813860000000713860000000400000000000300000000000600000000000900000000000800000000000300000000000200000000000)))))))
 (.node 32 (.node 16 (.node 8 (.node 4 (.node 2 (.node 1 (.leaf 600000000000600000000000400000000000900000000000800000000000600000000000500000000000500000000000500000000000500000000000500000000000500000000000500000000000500000000000500000000000500000000000500000000000500000000000500000000000500000000000500000000000500000000000500000000000500000000000500000000000500000000000500000000000500000000000500000000000500000000000500000000000400000000000400000000000600000000000500000000000500000000000500000000000500000000000600000000000500000000000500000000000500000000000500000000000500000000000500000000000500000000000400000000000700000000000600000000000900000000000400000000000800000000000400000000000600000000000400000000000600000000000100000000000600000000000200000000000600000000000600000000000600000000000400000000000600000000000)
 (.leaf 600000000000600000000000600000000000200000000000600000000000300000000000300000000000600000000000600000000000600000000000400000000000600000000000600000000000600000000000400000000000400000000000600000000000400000000000400000000000600000000000400000000000200000000000600000000000400000000000608460100000400000000000900000000000600000000000400000000000600000000000400000000000800000000000600000000000400000000000500000000000500000000000800000000000400000000000900000000000800000000000500000000000900000000000600000000000500000000000500000000000400000000000100000000000200000000000100000000000200000000000200000000000100000000000100000000000100000000000400000000000400000000000900000000000400000000000800000000000700000000000800000000000800000000000900000000000200000000000))
 (.node 1 (.leaf 600000000000700000000000600000000000900000000000800000000000200000000000200000000000300000000000200000000000600000000000300000000000600000000000600000000000100000000000600000000000400000000000800000000000300000000000900000000000800000000000600000000000400000000000600000000000900000000000600000000000600000000000400000000000900000000000900000000000400000000000803140000000603140000000200000000000809630100000809630000000600000000000500000000000500000000000500000000000500000000000500000000000500000000000500000000000500000000000500000000000500000000000500000000000500000000000500000000000500000000000501130000000500000000000500000000000500000000000500000000000500000000000400000000000600000000000400000000000900000000000600000000000500000000000500000000000400000000000)
 (.leaf 600000000000500000000000500000000000500000000000500000000000500000000000500000000000500000000000500000000000500000000000500000000000200000000000400000000000200000000000100000000000900000000000900000000000600000000000500000000000500000000000500000000000500000000000500000000000500000000000400000000000200000000000200000000000200000000000800000000000400000000000800000000000400000000000200000000000200000000000400000000000100000000000900000000000600000000000600000000000500000000000500000000000500000000000500000000000500000000000500000000000500000000000500000000000500000000000500000000000500000000000400000000000600000000000200000000000600000000000422140000000922140000000600000000000801930000000800000000000600000000000400000000000600000000000400000000000900000000000)))
 (.node 2 (.node 1 (.leaf 600000000000600000000000500000000000500000000000500000000000400000000000500000000000500000000000500000000000500000000000500000000000500000000000500000000000500000000000500000000000500000000000400000000000400000000000300000000000600000000000400000000000600000000000400000000000600000000000400000000000700000000000600000000000400000000000608400000000900000000000600000000000500000000000500000000000400000000000600000000000500000000000400000000000400000000000800000000000600000000000400000000000600000000000401610000000400000000000400000000000200000000000200000000000600000000000400000000000600000000000600000000000400000000000600000000000700000000000600000000000200000000000600000000000400000000000600000000000300000000000400000000000400000000000600000000000600000000000)
 (.leaf 600000000000600000000000200000000000800000000000600000000000400000000000600000000000200000000000600000000000400000000000800000000000421800000000400000000000600000000000600000000000400000000000900000000000600000000000400000000000200000000000400000000000600000000000400000000000600000000000400000000000200000000000700000000000400000000000600000000000600000000000600000000000500000000000400000000000200000000000700000000000800000000000400000000000900000000000300000000000200000000000600000000000200000000000300000000000200000000000100000000000400000000000600000000000600000000000300000000000200000000000600000000000400000000000200000000000200000000000600000000000400000000000600000000000600000000000400000000000600000000000600000000000800000000000411370100000603690000000))
 (.node 1 (.leaf 404090000000400000000000400000000000100000000000100000000000600000000000900000000000612000000000500000000000500000000000500000000000500000000000500000000000500000000000500000000000500000000000500000000000500000000000400000000000400000000000500000000000600000000000500000000000500000000000800000000000800000000000600000000000613340000000900000000000600000000000500000000000400000000000600000000000200000000000200000000000800000000000600000000000400000000000200000000000600000000000500000000000500000000000500000000000400000000000200000000000400000000000400000000000600000000000500000000000500000000000500000000000500000000000500000000000500000000000500000000000500000000000500000000000800000000000400000000000200000000000400000000000600000000000200000000000500000000000)
 (.leaf 500000000000500000000000500000000000500000000000500000000000400000000000800000000000619420000000600000000000400000000000100000000000600000000000322140000000722140000000222140000000400000000000800000000000800000000000600000000000400000000000404150000000400000000000300000000000600000000000600000000000500000000000500000000000500000000000500000000000600000000000500000000000500000000000500000000000500000000000500000000000500000000000500000000000400000000000300000000000900000000000400000000000800000000000400000000000800000000000600000000000200000000000400000000000400000000000200000000000800000000000200000000000600000000000400000000000600000000000900000000000800000000000100000000000400000000000308400000000208400000000307320000000600000000000500000000000400000000000))))
 (.node 4 (.node 2 (.node 1 (.leaf 900000000000600000000000400000000000700000000000700000000000400000000000600000000000600000000000400000000000600000000000400000000000600880000000400000000000400000000000100000000000600000000000200000000000400000000000600000000000200000000000300000000000600000000000400000000000600000000000200000000000600000000000600000000000400000000000600000000000300000000000600000000000400000000000600000000000600000000000400000000000800000000000600000000000400000000000900000000000600000000000600000000000200000000000900000000000400000000000600000000000800000000000800000000000600000000000400000000000200000000000900000000000600000000000400000000000700000000000800000000000800000000000700000000000600000000000800000000000811850000000811850000000600000000000400000000000100000000000)
 (.leaf 700000000000600000000000600000000000400000000000509690000000500000000000500000000000500000000000400000000000600000000000100000000000400000000000200000000000200000000000100000000000200000000000200000000000100000000000400000000000400000000000300000000000200000000000100000000000200000000000400000000000800000000000600000000000400000000000600000000000700000000000800000000000200000000000300000000000200000000000700000000000711370000000603690000000704090000000408260000000808260000000300000000000200000000000200060000000400000000000412000000000612000000000400000000000700000000000800000000000812560100000800000000000600000000000500000000000500000000000200000000000800000000000800000000000800000000000800000000000800000000000807430000000503100000000400000000000100000000000))
 (.node 1 (.leaf 400000000000400000000000800000000000600000000000400000000000600000000000200000000000600000000000500000000000500000000000500000000000500000000000500000000000400000000000300270000000400000000000200000000000400000000000600000000000400000000000800000000000900000000000600000000000500000000000500000000000500000000000500000000000500000000000500000000000500000000000500000000000500000000000500000000000200000000000800000000000400000000000200000000000600000000000300000000000200000000000100000000000200000000000200000000000200000000000600000000000500000000000500000000000500000000000500000000000415570621972912730100000612730000000319431421967600000000000100000000000200000000000200000000000400000000000200000000000900000000000600000000000411350100000611350000000600000000000)
 (.leaf 600000000000500000000000500000000000500000000000500000000000400000000000600000000000600000000000400000000000800000000000700000000000300000000000400000000000400000000000200000000000400000000000200000000000200000000000400000000000200000000000300000000000600000000000400000000000200000000000500000000000500000000000600000000000600000000000400000000000800000000000400000000000400000000000600000000000402700000000205790000000600000000000300000000000600000000000600000000000600000000000400000000000600000000000400000000000600000000000600000000000600000000000200000000000300000000000600000000000400000000000600000000000600000000000900000000000400000000000900000000000600000000000400000000000800000000000800000000000900000000000900000000000800000000000400000000000600000000000)))
 (.node 2 (.node 1 (.leaf 900000000000600000000000400000000000600000000000400000000000600000000000400000000000600000000000400000000000800000000000100000000000600000000000400000000000800000000000611850000000400000000000400000000000200000000000300000000000200000000000600000000000500000000000600000000000100000000000800000000000900000000000900000000000600000000000600000000000500000000000800000000000503240100000503240000000503240000000500000000000500000000000500000000000500000000000500000000000207070000000100000000000400000000000800000000000400000000000600000000000600000000000400000000000600000000000600000000000400000000000700000000000600000000000600000000000400000000000800000000000300000000000600000000000400000000000400000000000904780000000202990000000602990000000800000000000200000000000)
 (.leaf 200060000000700060000000200060000000300060000000200060000000400000000000200000000000600000000000201380000000600000000000400000000000400000000000600000000000800000000000802950000000202950000000800000000000800000000000813490100000812700000000800000000000900000000000822810000000922810000000300000000000603100000000803100000000900000000000800000000000400000000000800000000000700000000000609470000000900000000000600000000000700000000000500000000000500000000000500000000000500000000000500000000000400000000000300000000000200000000000600000000000400000000000200000000000800000000000600000000000500000000000500000000000500000000000500000000000500000000000500000000000500000000000500000000000500000000000500000000000500000000000800000000000800000000000600000000000600000000000))
 (.node 1 (.leaf 600000000000300000000000200000000000200000000000500000000000500000000000500000000000415530621997100000000000400000000000318470621974618450000000600000000000300000000000400000000000100000000000400000000000800000000000700000000000600000000000500000000000500000000000412720000000400000000000600000000000200000000000600000000000600000000000500000000000500000000000500000000000900000000000500000000000500000000000400000000000600000000000600000000000300000000000600000000000400000000000800000000000700000000000600000000000200000000000200000000000100000000000400000000000600000000000400000000000500000000000500000000000500000000000500000000000500000000000400000000000200000000000600000000000400000000000900000000000600000000000600000000000400000000000600000000000108510100000)
 (.leaf 608510000000400000000000402700000000902700000000202700000000702700000000600000000000400000000000400000000000400000000000700000000000200000000000600000000000300000000000400000000000800000000000600000000000900000000000800000000000100000000000600000000000600000000000400000000000200000000000600000000000400000000000600000000000600000000000600000000000600000000000600000000000200000000000600000000000400000000000400000000000600000000000800000000000600000000000600000000000400000000000800000000000800000000000400000000000600000000000600000000000400000000000900000000000900000000000900000000000300000000000600000000000600000000000400000000000600000000000400000000000600000000000400000000000700000000000100000000000600000000000400000000000600000000000200000000000400000000000)))))
 (.node 8 (.node 4 (.node 2 (.node 1 (.leaf 600000000000400000000000500000000000500000000000400000000000600000000000200000000000900000000000600000000000400000000000200000000000600000000000600000000000500000000000500000000000500000000000522430000000522430000000522430000000501320000000400000000000600000000000200000000000600000000000400000000000400000000000400000000000800000000000400000000000600000000000600000000000400000000000400000000000200000000000600000000000800000000000600000000000600060000000100000000000400000000000300000000000800000000000400000000000600000000000400000000000800000000000400000000000600000000000700000000000809420000000709420000000700000000000306330000000613490000000322020000000322020000000721710000000422810000000400000000000200000000000800000000000700000000000200000000000600000000000)
 (.leaf 700000000000600000000000200000000000400000000000600000000000500000000000500000000000500000000000500000000000500000000000500000000000400000000000600000000000700270000000621730000000500000000000500000000000400000000000600000000000500000000000500000000000500000000000500000000000400000000000200000000000800000000000200000000000200000000000200000000000800000000000700000000000700000000000700000000000600000000000200000000000200000000000500000000000500000000000500000000000500000000000500000000000500000000000500000000000500000000000500000000000500000000000500000000000500000000000500000000000500000000000500000000000500000000000500000000000400000000000600000000000300000000000600000000000300000000000300000000000300000000000400000000000805620000000705620000000605620000000))
 (.node 1 (.leaf 202020000000906150100000601790000000500000000000500000000000500000000000500000000000500000000000500000000000500000000000500000000000500000000000500000000000500000000000500000000000500000000000500000000000800000000000100000000000800000000000600000000000400000000000400000000000400000000000600000000000400000000000600000000000400000000000400000000000400000000000300000000000200000000000100000000000600000000000400000000000800000000000600000000000500000000000500000000000400000000000400000000000800000000000600000000000400000000000600000000000900000000000400000000000400000000000800000000000400000000000400000000000400000000000600000000000200000000000600000000000600000000000200000000000600000000000400000000000200000000000400000000000600000000000200000000000900000000000)
 (.leaf 600000000000400000000000600000000000600000000000600000000000400000000000400000000000600000000000600000000000400000000000600000000000800000000000600000000000800000000000400000000000600000000000600000000000400000000000800000000000600000000000600000000000400000000000900000000000900000000000900000000000600000000000900000000000600000000000400000000000600000000000800000000000600000000000400000000000600000000000400000000000800000000000900000000000400000000000900000000000700000000000200000000000700000000000600000000000600000000000400000000000100000000000600000000000400000000000600000000000400000000000600000000000400000000000600000000000400000000000500000000000400000000000200000000000500000000000500000000000400000000000900000000000600000000000500000000000500000000000)))
 (.node 2 (.node 1 (.leaf 500000000000500000000000500000000000507600100000507600000000510360100000510360000000700000000000200000000000800000000000200000000000800000000000800000000000800000000000800000000000700000000000800000000000800000000000400000000000800000000000700000000000600000000000400000000000400000000000700000000000900000000000400000000000800000000000600000000000400000000000800000000000700000000000400000000000600000000000800000000000400000000000900000000000400000000000211230000000207580000000207580000000400000000000200060000000200060000000400000000000400000000000400000000000406360100000706360000000601270000000400000000000600000000000700000000000300000000000600000000000400000000000600000000000400000000000600000000000400000000000200000000000200000000000600000000000500000000000)
 (.leaf 500000000000600000000000500000000000509520100000509520000000500000000000500000000000500000000000500000000000422540000000622540000000400000000000800000000000600000000000500000000000500000000000500000000000400000000000600000000000500000000000500000000000500000000000500000000000500000000000500000000000400000000000800000000000700000000000700000000000600000000000500000000000500000000000500000000000500000000000500000000000500000000000500000000000500000000000500000000000400000000000200000000000700000000000600000000000400000000000600000000000800000000000800000000000800000000000500000000000500000000000500000000000500000000000500000000000500000000000707530000000600000000000622710000000600000000000400000000000400000000000400000000000100000000000600000000000606310000000))
 (.node 1 (.leaf 500000000000500000000000800000000000800000000000900000000000400000000000600000000000800000000000200000000000300000000000200000000000400000000000400000000000600000000000400000000000900000000000800000000000200000000000600000000000400000000000400000000000600000000000600000000000400000000000400000000000600000000000400000000000600000000000400000000000600000000000400000000000400000000000600000000000600000000000300000000000200000000000400000000000600000000000300000000000600000000000600000000000200000000000200000000000600000000000600000000000400000000000600000000000200000000000600000000000400000000000400000000000600000000000900000000000600000000000800000000000400000000000400000000000700000000000600000000000800000000000800000000000900000000000400000000000600000000000)
 (.leaf 400000000000800000000000200000000000800000000000300000000000600000000000300000000000200000000000400000000000600000000000400000000000400000000000200000000000800000000000800000000000600000000000600000000000400000000000200000000000600000000000400000000000200000000000600000000000200000000000600000000000600000000000500000000000500000000000500000000000400000000000600000000000800000000000612990000000500000000000500000000000400000000000200000000000600000000000400000000000400000000000600000000000400000000000400000000000400000000000800000000000400000000000200000000000600000000000400000000000600000000000600000000000400000000000400000000000800000000000400000000000800000000000800000000000800000000000400060000000400060000000400000000000300000000000400000000000601700000000))))
 (.node 4 (.node 2 (.node 1 (.leaf 403910000000103910000000601270000000308810100000808810000000600000000000412340000000610810100000700000000000800000000000910140000000810730100000822020000000900000000000800000000000612650000000722370000000611660100000211190000000400000000000200000000000100000000000600000000000200000000000500000000000500000000000500000000000500000000000409520000000600000000000500000000000500000000000500000000000500000000000500000000000500000000000504980100000504980000000400000000000700000000000422540000000422540000000400000000000800000000000600000000000600000000000500000000000500000000000500000000000500000000000500000000000500000000000500000000000500000000000500000000000808220000000400000000000100000000000800000000000700000000000800000000000700000000000600000000000800000000000)
 (.leaf 900000000000900000000000600000000000500000000000500000000000500000000000500000000000500000000000400000000000800000000000800000000000800000000000700000000000400000000000800000000000700000000000900000000000500000000000500000000000400000000000800000000000815590000000600000000000619480000000500000000000400000000000606820000000601440000000500000000000500000000000500000000000500000000000500000000000500000000000700000000000600000000000600000000000700000000000100000000000400000000000400000000000700000000000800000000000700000000000600000000000400000000000600000000000400000000000700000000000400000000000600000000000400000000000600000000000400000000000600000000000600000000000400000000000400000000000600000000000400000000000600000000000600000000000400000000000400000000000))
 (.node 1 (.leaf 200000000000200000000000700000000000800000000000600000000000600000000000400000000000400000000000700000000000400000000000600000000000400000000000600000000000200000000000600000000000400000000000400000000000600000000000400000000000600000000000400000000000200000000000400000000000600000000000800000000000600000000000100000000000600000000000400000000000200000000000600000000000300000000000400000000000400000000000600000000000400000000000600000000000400000000000600000000000100000000000200000000000700000000000400000000000400000000000200000000000600000000000400000000000600000000000400000000000600000000000900000000000600000000000400000000000200000000000400000000000900000000000600000000000800000000000400000000000800000000000600000000000400000000000600000000000200000000000)
 (.leaf 400000000000300000000000600000000000208890000000600000000000400000000000600000000000500000000000500000000000500000000000400000000000500000000000500000000000500000000000500000000000500000000000200000000000200000000000500000000000500000000000500000000000500000000000500000000000400000000000600000000000400000000000100000000000900000000000600000000000400000000000600000000000600000000000800000000000400000000000100000000000600000000000600000000000400000000000400000000000400000000000800000000000800000000000600000000000400000000000600000000000400000000000400000000000700000000000600000000000400000000000300000000000601460000000400000000000100000000000600000000000100000000000401880000000600000000000600000000000700000000000200000000000612340000000600000000000207210000000)))
 (.node 2 (.node 1 (.leaf 602770000000400000000000300000000000600000000000300000000000300000000000300000000000500000000000500000000000400000000000200000000000800000000000600000000000500000000000500000000000500000000000400000000000600000000000504980000000504980000000500000000000500000000000200000000000200000000000700000000000606120000000200000000000400000000000400000000000600000000000500000000000500000000000500000000000500000000000500000000000500000000000500000000000400000000000200000000000100000000000700000000000700000000000700000000000900000000000800000000000600000000000500000000000500000000000500000000000500000000000500000000000500000000000400000000000400000000000400000000000800000000000600000000000800000000000923360622006600000000000500000000000500000000000500000000000415591421951)
 (.leaf 300000000000600000000000300000000000500000000000500000000000418730000000200000000000400000000000912760100000806820000000806260000000500000000000400000000000600000000000500000000000400000000000100000000000600000000000800000000000800000000000800000000000400000000000600000000000800000000000800000000000400000000000600000000000400000000000800000000000400000000000400000000000600000000000200000000000600000000000400000000000200000000000600000000000411880000000400000000000800000000000700000000000800000000000700000000000600000000000800000000000600000000000800000000000800000000000700000000000700000000000700000000000800000000000200000000000700000000000100000000000600000000000600000000000400000000000400000000000200000000000100000000000600000000000600000000000600000000000))
 (.node 1 (.leaf 400000000000600000000000200000000000600000000000100000000000100000000000600000000000600000000000300000000000600000000000400000000000400000000000600000000000400000000000200000000000200000000000300000000000600000000000400000000000800000000000800000000000700000000000400000000000300000000000300000000000600000000000600000000000600000000000400000000000900000000000900000000000800000000000600000000000600000000000800000000000600000000000700000000000600000000000200000000000400000000000600000000000200000000000200000000000600000000000800000000000600000000000800000000000800000000000600000000000500000000000500000000000500000000000500000000000500000000000500000000000500000000000500000000000500000000000500000000000500000000000100000000000100000000000600000000000400000000000)
 (.leaf 600000000000100000000000600000000000400000000000400000000000600000000000600000000000800000000000800000000000400000000000600000000000400000000000700000000000400000000000600000000000400000000000100000000000400000000000400000000000600000000000600000000000606370000000610930000000900000000000604430000000422360000000110700000000400000000000600000000000602040000000600000000000800000000000600000000000400000000000803370000000801210000000301210000000602940000000400000000000200000000000212770100000210920100000110920000000500000000000400000000000400000000000200000000000400000000000500000000000500000000000500000000000500000000000500000000000500000000000500000000000500000000000500000000000206120000000200000000000800000000000800000000000300000000000200000000000400000000000))))))
 (.node 16 (.node 8 (.node 4 (.node 2 (.node 1 (.leaf 600000000000500000000000500000000000500000000000500000000000400000000000600000000000500000000000500000000000500000000000400000000000200000000000414230621972200000000000200000000000200000000000200000000000500000000000500000000000500000000000500000000000500000000000500000000000400000000000700000000000600000000000600000000000500000000000500000000000400000000000412760000000600000000000300000000000600000000000500000000000500000000000500000000000500000000000600000000000800000000000800000000000400000000000400000000000600000000000400000000000600000000000400000000000300000000000200000000000600000000000400000000000600000000000200000000000600000000000400000000000600000000000400000000000300000000000800000000000600000000000411880000000600000000000400000000000400000000000)
 (.leaf 200000000000800000000000600000000000400000000000600000000000400000000000700000000000000000000000000000000000607030000000400000000000400000000000600000000000400000000000400000000000400000000000400000000000600000000000400000000000200000000000200000000000600000000000200000000000600000000000400000000000600000000000300000000000600000000000600000000000600000000000600000000000400000000000600000000000200000000000400000000000200000000000600000000000400000000000100000000000200000000000400000000000200000000000400000000000100000000000600000000000600000000000700000000000700000000000600000000000400000000000400000000000400000000000900000000000600000000000900000000000600000000000400000000000600000000000400000000000800000000000600000000000400000000000800000000000700000000000))
 (.node 1 (.leaf 600000000000400000000000600000000000400000000000200000000000200000000000600000000000200000000000900000000000300000000000600000000000900000000000400000000000600000000000702560000000600000000000800000000000600000000000500000000000500000000000500000000000500000000000400000000000400000000000200000000000400000000000600000000000800000000000200000000000800000000000800000000000700000000000800000000000400000000000800000000000900000000000800000000000800000000000800000000000600000000000300000000000600000000000400000000000700000000000400000000000200000000000100000000000900000000000800000000000900000000000600000000000403500000000710930000000710930000000605690000000222360000000822360000000400000000000400000000000400000000000601420000000600000000000222780000000812620100000)
 (.leaf 202040000000800000000000600000000000300000000000600420000000602790000000800780000000923050000000600780000000500000000000500000000000500000000000500000000000500000000000500000000000400000000000600000000000500000000000500000000000500000000000500000000000500000000000500000000000500000000000500000000000500000000000500000000000500000000000400000000000800000000000600000000000500000000000400000000000200000000000600000000000500000000000500000000000500000000000400000000000200000000000100000000000100000000000200000000000700000000000700000000000800000000000400000000000200000000000300000000000600000000000600000000000500000000000500000000000500000000000500000000000500000000000400000000000300000000000500000000000500000000000500000000000500000000000500000000000500000000000)))
 (.node 2 (.node 1 (.leaf 400000000000607340621936600000000000321650000000300000000000300000000000300000000000500000000000500000000000400000000000700000000000400000000000711020100000611020000000300000000000200000000000300000000000219540000000200000000000211950000000606940000000600000000000600000000000800000000000500000000000500000000000500000000000400000000000600000000000400000000000800000000000200000000000800000000000400000000000600000000000600000000000400000000000200000000000600000000000400000000000600000000000600000000000400000000000800000000000300000000000600000000000400000000000600000000000800000000000800000000000600000000000600000000000400000000000800000000000600000000000400000000000800000000000400000000000600000000000400000000000400000000000400000000000600000000000800000000000)
 (.leaf 600000000000800000000000400000000000600000000000800000000000700000000000400000000000600000000000400000000000200640000000300000000000400000000000300000000000200000000000300000000000200000000000900000000000100000000000200000000000200000000000100000000000700000000000600000000000600000000000400000000000600000000000300000000000300000000000600000000000800000000000300000000000800000000000600000000000800000000000600000000000600000000000700000000000600000000000400000000000400000000000800000000000700000000000600000000000400000000000600000000000200000000000600000000000400000000000400000000000800000000000200000000000600000000000800000000000605020000000500000000000500000000000500000000000500000000000500000000000500000000000500000000000500000000000500000000000500000000000))
 (.node 1 (.leaf 500000000000500000000000500000000000400000000000400000000000400000000000800000000000400000000000700000000000400000000000200000000000400000000000400000000000400000000000200000000000100000000000800000000000200000000000200000000000900000000000600000000000400000000000800000000000200000000000400000000000100000000000400000000000600000000000600000000000600000000000300000000000900000000000600000000000411830000000700000000000900000000000400000000000600000000000600810000000408240000000100000000000400000000000100000000000200000000000200000000000200000000000100000000000422780000000610600000000607950000000400000000000400000000000600000000000800420000000809950100000709950000000600000000000610340000000309860000000200000000000402390000000623050000000200000000000622980000000)
 (.leaf 400000000000600000000000500000000000500000000000500000000000500000000000500000000000500000000000500000000000500000000000500000000000500000000000200000000000100000000000200000000000200000000000500000000000500000000000500000000000500000000000300000000000600000000000500000000000500000000000400000000000700000000000700000000000800000000000700000000000500000000000500000000000500000000000500000000000500000000000500000000000500000000000500000000000500000000000500000000000419521421970619520000000500000000000500000000000700000000000400000000000608450000000211600100000223000000000222990000000400000000000600000000000600000000000801660000000801070000000700000000000300000000000200000000000600000000000800000000000600000000000400000000000100000000000800000000000400000000000))))
 (.node 4 (.node 2 (.node 1 (.leaf 800000000000800000000000900000000000400000000000400000000000700000000000400000000000900000000000600000000000800000000000800000000000100000000000300000000000200000000000800000000000600000000000600000000000800000000000400000000000700000000000400000000000800000000000800000000000900000000000800000000000300000000000200000000000200000000000900000000000800000000000800000000000800000000000900000000000900000000000800000000000900000000000400000000000900000000000400000000000600000000000800000000000400000000000600000000000400000000000400000000000400000000000600000000000600000000000600000000000400000000000200000000000600000000000400000000000600000000000600000000000600000000000400000000000800000000000700000000000700000000000800000000000800000000000400000000000400000000000)
 (.leaf 400000000000700000000000600000000000400000000000900000000000300000000000200000000000200000000000300000000000300000000000200000000000600000000000600000000000700000000000600000000000400000000000800000000000800000000000200000000000900000000000600000000000200000000000100000000000200000000000600000000000600000000000400000000000200000000000300000000000200000000000400000000000600000000000400000000000800000000000600000000000800000000000800000000000900000000000800000000000800000000000800000000000600000000000500000000000800000000000200000000000100000000000100000000000600000000000400000000000800000000000700000000000800000000000800000000000900000000000400000000000700000000000800000000000200000000000200000000000600000000000600000000000800000000000600000000000200000000000))
 (.node 1 (.leaf 400000000000400000000000600000000000300000000000200000000000600000000000600000000000600000000000600000000000200080000000100000000000422470000000422470000000800000000000605550000000422660000000322660000000800420000000700420000000205190000000601980000000600990000000400990000000609860000000213370000000600000000000600000000000500000000000500000000000500000000000500000000000500000000000500000000000500000000000500000000000500000000000500000000000500000000000500000000000500000000000200000000000200000000000800000000000500000000000500000000000500000000000500000000000500000000000500000000000200000000000400000000000200000000000100000000000200000000000400000000000200000000000600000000000500000000000500000000000500000000000500000000000500000000000500000000000400000000000)
 (.leaf 400000000000119520000000319520000000618460000000200000000000500000000000500000000000400000000000400000000000100000000000600000000000422990000000406590000000219551421957400000000000307380000000300150000000600150000000200150000000400000000000600000000000100000000000800000000000400000000000600000000000800000000000200000000000400000000000600000000000600000000000400000000000200000000000400000000000600000000000800000000000200000000000100000000000200000000000900000000000800000000000600000000000400000000000600000000000600000000000400000000000600000000000600000000000400000000000200000000000700000000000800000000000400000000000300000000000300000000000200000000000200000000000300000000000200000000000200000000000200000000000200000000000100000000000200000000000200000000000)))
 (.node 2 (.node 1 (.leaf 300000000000200000000000900000000000800000000000700000000000400000000000200000000000200000000000400000000000800000000000700000000000700000000000800000000000900000000000200000000000800000000000400000000000400000000000200000000000200000000000400000000000700000000000600000000000400000000000800000000000300000000000700000000000200000000000600000000000100000000000800000000000400000000000800000000000100000000000600000000000300000000000600000000000400000000000900000000000800000000000600000000000600000000000600000000000900000000000400000000000600000000000400000000000800000000000400000000000800000000000900000000000800000000000300000000000800000000000400000000000900000000000800000000000600000000000700000000000400000000000800000000000700000000000900000000000600000000000)
 (.leaf 400000000000400000000000900000000000800000000000900000000000800000000000700000000000700000000000600000000000400000000000623590000000400000000000400000000000600000000000400000000000900000000000800000000000300000000000600000000000200000000000500000000000500000000000500000000000600000000000400000000000700000000000900000000000600000000000600000000000400000000000600000000000503280000000400000000000600000000000500000000000500000000000400000000000400000000000800000000000600000000000400000000000800000000000200000000000400000000000400000000000100000000000800000000000800000000000300000000000600000000000200000000000400000000000400000000000900000000000800000000000721630000000400000000000800000000000600000000000600000000000600000000000400000000000800000000000400000000000))
 (.node 1 (.leaf 400000000000100000000000600000000000800000000000300000000000600000000000400000000000409090100000909090000000800000000000100000000000100000000000600000000000100080000000100080000000200080000000408180000000312260100000600990000000600000000000500000000000500000000000500000000000500000000000500000000000500000000000500000000000500000000000500000000000500000000000500000000000200000000000500000000000500000000000500000000000500000000000500000000000500000000000500000000000500000000000500000000000500000000000500000000000500000000000500000000000500000000000500000000000500000000000200000000000200000000000200000000000300000000000200000000000800000000000500000000000500000000000500000000000500000000000500000000000500000000000500000000000500000000000500000000000400000000000)
 (.leaf 600000000000800000000000600000000000206660000000300000000000900000000000300000000000500000000000500000000000400000000000200000000000800000000000200000000000400000000000200000000000222490000000222490000000219590000000619590000000406930000000700000000000600000000000605340000000300150000000200000000000600000000000900000000000600000000000400000000000400000000000800000000000400000000000800000000000200000000000200000000000600000000000400000000000400000000000600000000000700000000000700000000000400000000000600000000000700000000000300000000000600000000000600000000000400000000000100000000000200000000000100000000000100000000000200000000000400000000000200000000000100000000000400000000000100000000000400000000000100000000000600000000000400000000000700000000000600000000000)))))
 (.node 8 (.node 4 (.node 2 (.node 1 (.leaf 400000000000600000000000400000000000600000000000400000000000200000000000200000000000200000000000100000000000100000000000200000000000600000000000400000000000300000000000200000000000600000000000400000000000600000000000400000000000600000000000600000000000400000000000400000000000600000000000400000000000700000000000200000000000100000000000900000000000800000000000600000000000200000000000600000000000600000000000800000000000300000000000900000000000600000000000400000000000600000000000800000000000800000000000400000000000400000000000600000000000800000000000800000000000800000000000800000000000800000000000600000000000600000000000200000000000600000000000400000000000400000000000700000000000400000000000900000000000400000000000200000000000200000000000600000000000600000000000)
 (.leaf 400000000000500000000000400000000000700000000000200000000000100000000000800000000000600000000000600000000000600000000000500000000000500000000000500000000000500000000000500000000000500000000000500000000000400000000000400000000000400000000000700000000000600000000000600000000000400000000000400000000000600000000000600000000000200000000000100000000000900000000000200000000000100000000000600000000000800000000000203350000000408930100000600000000000800000000000600000000000400000000000300000000000213260000000600000000000600000000000600000000000400000000000600000000000400000000000600000000000200000000000600000000000600080000000400000000000209160000000404870000000804870000000600000000000822750000000600000000000404850000000204850000000600000000000604890000000500000000000))
 (.node 1 (.leaf 500000000000500000000000500000000000500000000000400000000000800000000000400000000000400000000000200000000000500000000000500000000000500000000000500000000000500000000000500000000000500000000000500000000000500000000000400000000000200000000000400000000000500000000000500000000000500000000000500000000000500000000000400000000000600000000000600000000000200000000000600000000000619570000000800000000000600000000000600000000000407670000000122490000000219590000000306010000000200130000000100000000000400000000000311720000000800000000000400000000000400000000000600000000000700000000000200000000000800000000000900000000000400000000000400000000000800000000000600000000000200000000000400000000000300000000000900000000000300000000000900000000000400000000000700000000000200000000000)
 (.leaf 400000000000100000000000600000000000200000000000100000000000100000000000200000000000100000000000212210100000212210000000400000000000700000000000700000000000200000000000100000000000400000000000600000000000400000000000600000000000600000000000400000000000800000000000600000000000600000000000600000000000400000000000600000000000600000000000400000000000600000000000200000000000800000000000200000000000300000000000400000000000600000000000400000000000300000000000900000000000200000000000900000000000300000000000400000000000300000000000600000000000600000000000400000000000400000000000400000000000300000000000600000000000300000000000200000000000200000000000200000000000100000000000600000000000600000000000300000000000800000000000600000000000400000000000600000000000400000000000)))
 (.node 2 (.node 1 (.leaf 600000000000500000000000500000000000400000000000300000000000500000000000500000000000500000000000500000000000500000000000800000000000400000000000400000000000100000000000200000000000600000000000500000000000500000000000500000000000500000000000500000000000412630000000421700000000221700000000400000000000800000000000400000000000700000000000600000000000400000000000400000000000600000000000500000000000500000000000400000000000500000000000500000000000200000000000500000000000400000000000600000000000400000000000800000000000600000000000403350000000200000000000208930000000108930000000800000000000700000000000600000000000400000000000300000000000300000000000300000000000400000000000200000000000100000000000900000000000400000000000800000000000400000000000401590000000400000000000)
 (.leaf 100000000000800000000000610510000000804310000000922750000000822750000000404850000000500000000000411300000000200000000000600000000000500000000000500000000000500000000000500000000000500000000000500000000000500000000000500000000000400000000000600000000000500000000000500000000000500000000000500000000000400000000000600000000000600000000000203900000000300000000000200000000000204910000000600000000000400000000000621790000000619590000000300000000000600130000000400000000000200000000000600000000000400000000000200000000000600000000000800000000000400000000000600000000000400000000000800000000000400000000000600000000000400000000000400000000000600000000000400000000000700000000000200000000000400000000000400000000000600000000000200000000000300000000000400000000000300000000000))
 (.node 1 (.leaf 200000000000600000000000400000000000200000000000200000000000200000000000600000000000600000000000400000000000400000000000700000000000400000000000400000000000700000000000600000000000400000000000400000000000700000000000600000000000400000000000600000000000400000000000700000000000600000000000400000000000400000000000600000000000300000000000600000000000600000000000400000000000800000000000600000000000600000000000200000000000600000000000300000000000300000000000600000000000800000000000800000000000700000000000800000000000300000000000600000000000600000000000400000000000400000000000600000000000400000000000600000000000200000000000200000000000600000000000200000000000600000000000400000000000400000000000600000000000400000000000800000000000800000000000700000000000300000000000)
 (.leaf 600000000000500000000000400000000000600000000000500000000000400000000000600000000000900000000000200000000000200000000000400000000000400000000000600000000000500000000000500000000000401120000000621700000000400000000000700000000000600000000000600000000000200000000000700000000000400000000000400000000000100000000000600000000000500000000000500000000000500000000000500000000000600000000000500000000000500000000000500000000000400000000000400000000000600000000000400000000000800000000000400000000000600000000000600000000000603350000000803050000000600000000000400000000000600000000000600000000000200000000000900000000000300000000000600000000000300000000000200000000000600000000000200000000000800000000000600000000000800000000000800000000000604320000000400000000000800080000000))))
 (.node 4 (.node 2 (.node 1 (.leaf 800080000000600080000000400000000000400000000000600000000000601310000000202710000000102710000000601900000000622230000000500000000000500000000000400000000000200000000000612530000000604880000000200000000000100000000000900000000000200000000000500000000000500000000000500000000000500000000000500000000000500000000000500000000000500000000000500000000000500000000000500000000000500000000000500000000000600000000000500000000000500000000000500000000000500000000000500000000000500000000000500000000000500000000000400000000000419600000000619600621955210681421989200000000000600000000000400000000000109250100000100000000000400000000000700000000000200000000000200000000000221790000000200000000000500000000000500000000000500000000000500000000000400150000000800150000000800150000000)
 (.leaf 700000000000200000000000400000000000400000000000300000000000200000000000800000000000600000000000400000000000200000000000400000000000900000000000400000000000300000000000400000000000200000000000200000000000300000000000300000000000200000000000100000000000200000000000400000000000600000000000200000000000600000000000200000000000400000000000200000000000200000000000600000000000700000000000800000000000600000000000700000000000900000000000600000000000200000000000400000000000800000000000200000000000600000000000400000000000200000000000200000000000100000000000100000000000100000000000600000000000600000000000400000000000600000000000400000000000900000000000900000000000800000000000400000000000400000000000100000000000600000000000400000000000400000000000400000000000600000000000))
 (.node 1 (.leaf 600000000000600000000000400000000000400000000000200000000000200000000000600000000000600000000000400000000000100000000000600000000000400000000000300000000000200000000000300000000000200000000000800000000000200000000000600000000000400000000000400000000000200000000000600000000000600000000000200000000000300000000000600000000000200000000000200000000000200000000000300000000000200000000000600000000000400000000000900000000000100000000000800000000000700000000000600000000000200000000000200000000000300000000000200000000000500000000000500000000000500000000000500000000000500000000000400000000000600000000000900000000000500000000000500000000000500000000000500000000000500000000000500000000000500000000000500000000000500000000000500000000000500000000000403220000000203220000000)
 (.leaf 602370000000400000000000400000000000622570000000222570000000600000000000400000000000600000000000600000000000500000000000500000000000404760000000400000000000200000000000600000000000500000000000500000000000500000000000500000000000500000000000500000000000500000000000500000000000500000000000500000000000500000000000200000000000200000000000100000000000200000000000100000000000600000000000400000000000800000000000400000000000600000000000202320000000400000000000100000000000600000000000200000000000400000000000200000000000402730000000802730000000400000000000900000000000600000000000402360000000600000000000400000000000400000000000200000000000100000000000400000000000900000000000202340000000112410100000608170000000102160000000801310000000400970000000600000000000411550000000)))
 (.node 2 (.node 1 (.leaf 609190000000613350100000600000000000600000000000500000000000500000000000500000000000500000000000500000000000500000000000500000000000500000000000500000000000500000000000500000000000500000000000500000000000500000000000400000000000619620000000300000000000200000000000300000000000100000000000300000000000600000000000600000000000500000000000500000000000500000000000500000000000500000000000500000000000500000000000100000000000500000000000500000000000500000000000500000000000900000000000400000000000600000000000600000000000201250000000800000000000803210000000200000000000900000000000900000000000600000000000300000000000200000000000400000000000400000000000300000000000800000000000400000000000400000000000700000000000600000000000200000000000400000000000300000000000200000000000)
 (.leaf 600000000000800000000000600000000000900000000000600000000000400000000000600000000000900000000000400000000000400000000000600000000000400000000000800000000000600000000000400000000000200000000000600000000000700000000000200000000000600000000000600000000000600000000000600000000000400000000000400000000000600000000000600000000000900000000000200000000000600000000000400000000000600000000000600000000000300000000000300000000000300000000000300000000000300000000000200000000000300000000000300000000000200000000000300000000000200000000000600000000000300000000000200000000000600000000000400000000000200000000000600000000000400000000000600000000000500000000000300000000000700000000000500000000000500000000000500000000000500000000000500000000000500000000000500000000000500000000000))
 (.node 1 (.leaf 500000000000500000000000500000000000500000000000500000000000500000000000500000000000500000000000500000000000400000000000200000000000322570000000222570000000422600000000522600000000500000000000500000000000500000000000500000000000500000000000500000000000500000000000500000000000500000000000500000000000500000000000500000000000200000000000600000000000400000000000800000000000200000000000900000000000603050000000400000000000600000000000400000000000900000000000600000000000300000000000600000000000800000000000400000000000400000000000600000000000600000000000800000000000400000000000300000000000100000000000200000000000200000000000412410000000612410000000202160000000100000000000900000000000613100000000600000000000400000000000609190000000600000000000900000000000600000000000)
 (.leaf 403520000000405520000000202610000000208860100000608860000000500000000000600000000000500000000000500000000000500000000000500000000000500000000000500000000000500000000000500000000000500000000000500000000000400000000000219610621984619621421908500000000000200000000000200000000000200000000000200000000000321820000000321820000000321820000000600000000000500000000000500000000000500000000000500000000000500000000000500000000000400000000000500000000000400130000000700130000000400000000000400000000000600000000000800000000000800000000000619060000000300000000000200000000000800000000000400000000000200000000000200000000000800000000000200000000000600000000000400000000000900000000000800000000000200000000000600000000000400000000000600000000000600000000000900000000000800000000000))))))))
 (.node 64 (.node 32 (.node 16 (.node 8 (.node 4 (.node 2 (.node 1 (.leaf 400000000000100000000000600000000000600000000000400000000000600000000000400000000000400000000000700000000000400000000000800000000000800000000000400000000000700000000000800000000000600000000000800000000000200000000000400000000000300000000000200000000000100000000000400000000000900000000000600000000000100000000000800000000000600000000000400000000000100000000000100000000000600000000000600000000000400000000000300000000000300000000000200000000000400000000000800000000000400000000000400000000000600000000000600000000000400000000000800000000000600000000000600000000000400000000000800000000000600000000000400000000000600000000000200000000000200000000000900000000000200000000000200000000000600000000000400000000000700000000000600000000000200000000000600000000000300000000000)
 (.leaf 600000000000500000000000400000000000500000000000500000000000800000000000900000000000600000000000500000000000500000000000500000000000500000000000500000000000400000000000300000000000600000000000422600000000500000000000500000000000500000000000500000000000500000000000500000000000500000000000400000000000700000000000600000000000400000000000803050000000802320000000403680000000700000000000400000000000600000000000400000000000600000000000400000000000400000000000300000000000700000000000200000000000700000000000300000000000300000000000600000000000400000000000700000000000700000000000700000000000900000000000600000000000422030000000409890100000900000000000600000000000900000000000606270000000208820000000212680100000612680000000300000000000600000000000500000000000413480000000))
 (.node 1 (.leaf 402610000000623090000000600000000000500000000000400000000000600000000000500000000000500000000000500000000000500000000000500000000000422040621987600000000000600000000000500000000000309340000000600000000000500000000000500000000000500000000000500000000000500000000000500000000000400000000000400000000000700000000000800000000000500430000000500430000000600000000000800000000000600000000000400000000000400000000000600000000000419060000000600000000000100000000000700000000000800000000000700000000000600000000000900000000000600000000000400000000000900000000000600000000000400000000000400000000000600000000000600000000000400000000000800000000000600000000000400000000000600000000000800000000000100000000000800000000000800000000000400000000000600000000000600000000000400000000000)
 (.leaf 100000000000600000000000400000000000200000000000400000000000200000000000200000000000100000000000600000000000400000000000600000000000600000000000400000000000600000000000400000000000200000000000224440000000400000000000200000000000300000000000400000000000700000000000600000000000600000000000400000000000200000000000600000000000900000000000400000000000400000000000700000000000600000000000600000000000600000000000600000000000200000000000800000000000300000000000800000000000600000000000300000000000300000000000600000000000600000000000400000000000200000000000600000000000500000000000500000000000500000000000500000000000500000000000500000000000500000000000500000000000500000000000500000000000500000000000500000000000500000000000500000000000500000000000500000000000500000000000)))
 (.node 2 (.node 1 (.leaf 500000000000500000000000500000000000400000000000600000000000500000000000500000000000500000000000500000000000500000000000500000000000500000000000500000000000500000000000412080000000800000000000500000000000500000000000500000000000500000000000500000000000500000000000500000000000500000000000500000000000200000000000400000000000200000000000900000000000800000000000800000000000400000000000700000000000600000000000800000000000800000000000700000000000600000000000800000000000700000000000200000000000200000000000600000000000600000000000422030000000722030000000400000000000600000000000800000000000600560000000605740000000500000000000500000000000500000000000500000000000406060000000600000000000612800100000500000000000400000000000500000000000500000000000500000000000500000000000)
 (.leaf 500000000000500000000000500000000000400000000000221960621976200000000000200000000000500000000000500000000000500000000000209340000000618680000000410560000000600000000000500000000000500000000000500000000000500000000000500000000000400000000000400000000000200000000000600430000000400000000000400000000000200000000000900000000000600000000000200410000000400000000000300000000000700000000000600000000000400000000000900000000000300000000000200000000000100000000000400000000000600000000000600000000000400000000000200000000000700000000000800000000000800000000000400000000000300000000000600000000000400000000000600000000000200000000000600000000000400000000000600000000000600000000000800000000000800000000000800000000000600000000000800000000000600000000000800000000000400000000000))
 (.node 1 (.leaf 200000000000200000000000400000000000600000000000100000000000200000000000600000000000400000000000600000000000424440000000400000000000300000000000600000000000300000000000600000000000300000000000400000000000400000000000600000000000800000000000400000000000400000000000600000000000800000000000800000000000600000000000400000000000400000000000600000000000600000000000200000000000500000000000500000000000500000000000500000000000400000000000600000000000500000000000500000000000500000000000500000000000500000000000500000000000500000000000412080000000800000000000500000000000500000000000500000000000500000000000500000000000500000000000500000000000500000000000500000000000500000000000500000000000500000000000400000000000600000000000600000000000200000000000800000000000400000000000)
 (.leaf 600000000000400000000000800000000000600000000000600000000000800000000000400000000000300000000000600000000000800000000000400000000000800000000000800000000000700000000000805830100000908630100000808630000000600560000000400560000000200240000000112870100000900000000000600000000000300000000000600000000000600000000000600000000000500000000000500000000000400000000000400000000000404990000000606700000000900000000000800000000000800000000000813080000000700000000000400000000000700000000000600000000000500000000000500000000000500000000000500000000000500000000000300000000000800000000000500000000000500000000000500000000000500000000000500000000000500000000000818680000000818680000000800000000000810540000000500000000000500000000000500000000000500000000000500000000000500000000000))))
 (.node 4 (.node 2 (.node 1 (.leaf 400000000000605090000000400430000000800000000000800000000000600000000000400000000000800000000000400000000000600000000000400000000000100000000000600000000000400000000000600000000000400000000000600000000000100000000000100000000000300000000000200000000000400000000000800000000000400000000000700000000000600000000000100000000000800000000000600000000000200000000000600000000000600000000000400000000000700000000000800000000000700000000000600000000000900000000000800000000000700000000000600000000000400000000000800000000000600000000000600000000000400000000000800000000000800000000000800000000000100000000000100000000000800000000000600000000000400000000000800000000000424440000000600000000000400000000000700000000000400000000000600000000000600000000000400000000000700000000000)
 (.leaf 400000000000200000000000200000000000600000000000800000000000900000000000600000000000400000000000900000000000800000000000600000000000900000000000600000000000900000000000800000000000800000000000900000000000800000000000600000000000900000000000600000000000600000000000400000000000400000000000700000000000500000000000500000000000400000000000600000000000500000000000406570100000701150000000501150000000500000000000500000000000500000000000500000000000500000000000500000000000500000000000500000000000500000000000500000000000500000000000400000000000600000000000400000000000700000000000400000000000600000000000700000000000200000000000600000000000600000000000400000000000400000000000200000000000600000000000600000000000400000000000600000000000400000000000400000000000200000000000))
 (.node 1 (.leaf 800000000000400000000000300000000000400000000000800000000000900000000000901080000000800000000000700000000000600000000000800560000000300240000000400240000000600000000000200590000000200000000000209900000000600000000000600000000000600000000000500000000000400000000000400000000000601640000000900000000000600000000000600000000000400000000000900000000000900000000000600000000000500000000000500000000000500000000000500000000000500000000000500000000000600000000000500000000000500000000000500000000000500000000000500000000000500000000000100000000000100000000000100000000000800770000000800000000000210540000000800000000000600000000000500000000000500000000000500000000000500000000000500000000000400000000000400000000000600000000000400000000000600000000000400000000000600000000000)
 (.leaf 400000000000600000000000200000000000600000000000400000000000300000000000800000000000800410000000701500000000201500000000200000000000400000000000300000000000600000000000200000000000100000000000200000000000200000000000800000000000800000000000800000000000400000000000100000000000401740000000600000000000400000000000100000000000200000000000400000000000900000000000600000000000200000000000300000000000800000000000400000000000900000000000600000000000700000000000600000000000900000000000400000000000600000000000400000000000800000000000700000000000800000000000700000000000400000000000400000000000100000000000400000000000400000000000600000000000100820000000300000000000800000000000400000000000600000000000600000000000400000000000400000000000900000000000800000000000800000000000)))
 (.node 2 (.node 1 (.leaf 600000000000600000000000800000000000700000000000800000000000900000000000800000000000400000000000400000000000800000000000600000000000400000000000700000000000300000000000600000000000400000000000600000000000800000000000900000000000800000000000400000000000900000000000200000000000500000000000500000000000500000000000400000000000400000000000600000000000500000000000500000000000500000000000500000000000500000000000800000000000707500000000507500000000500000000000500000000000511280100000500000000000500000000000500000000000500000000000500000000000500000000000500000000000500000000000500000000000400000000000400000000000200000000000400000000000700000000000900000000000200000000000800000000000600000000000300000000000400000000000600000000000600000000000200000000000100000000000)
 (.leaf 300000000000600000000000800000000000400000000000400000000000100000000000300000000000600000000000415240621901400000000000600000000000400000000000601080000000613330000000600000000000400240000000613200000000208230000000605310000000600000000000600000000000500000000000500000000000401640000000601640000000400000000000600000000000900000000000822910000000822910000000800000000000400000000000700000000000400000000000600000000000500000000000500000000000500000000000500000000000500000000000600000000000900000000000900000000000600000000000500000000000501110000000501110000000501110000000500000000000500000000000500000000000500000000000207650000000100000000000200000000000500000000000500000000000500000000000500000000000500000000000700000000000500000000000500000000000600000000000))
 (.node 1 (.leaf 200000000000100000000000600000000000600000000000900000000000800000000000208920100000208920000000900000000000600000000000200000000000600000000000600000000000800000000000700000000000301500000000400000000000600000000000400000000000200000000000900000000000800000000000600000000000400000000000100000000000200000000000200000000000600000000000400000000000400000000000600000000000300000000000600000000000300000000000300000000000600000000000900000000000600000000000800000000000707510000000400000000000700000000000700000000000400000000000700000000000800000000000800000000000900000000000600000000000800000000000900000000000800000000000400000000000800000000000400000000000400000000000700000000000800000000000400000000000600000000000400000000000400000000000400000000000700820000000)
 (.leaf 600820000000400000000000200000000000400000000000400000000000400000000000400000000000400000000000400000000000800000000000600000000000800000000000200000000000600000000000300000000000600000000000400000000000600000000000800000000000400000000000300000000000600000000000700000000000600000000000600000000000500000000000500000000000700000000000900000000000800000000000400000000000300000000000600000000000500000000000500000000000400000000000500000000000500000000000500000000000500000000000500000000000500000000000500000000000500000000000500000000000500000000000500000000000400000000000300000000000600000000000900000000000200000000000600000000000200830000000600000000000600000000000400000000000600000000000400000000000600000000000300000000000400000000000322800100000222800000000)))))
 (.node 8 (.node 4 (.node 2 (.node 1 (.leaf 710650100000400000000000411700100000111700000000600000000000200240000000311420000000613200000000904930000000804930000000600000000000218400000000600000000000800000000000500000000000500000000000500000000000500000000000500000000000402640000000900000000000800000000000800000000000700000000000422910000000400000000000700000000000400000000000600000000000500000000000500000000000500000000000500000000000500000000000500000000000400000000000600000000000300000000000600000000000501110000000601110000000500000000000200000000000200000000000200000000000500000000000500000000000500000000000400000000000400000000000600000000000400000000000900000000000800000000000100000000000800000000000600000000000800000000000200000000000200000000000400000000000600000000000400000000000400000000000)
 (.leaf 600000000000600000000000300000000000200000000000200000000000600000000000400000000000100000000000200000000000900000000000600000000000200000000000100000000000600000000000200000000000400000000000400000000000200000000000600000000000600000000000800000000000800000000000800000000000600000000000800000000000600000000000400000000000600000000000400000000000400000000000600000000000900000000000900000000000900000000000700000000000400000000000600000000000400000000000600000000000400000000000600000000000400000000000800000000000800000000000800000000000400000000000600000000000600000000000400000000000600000000000800000000000400000000000400000000000900000000000400000000000700000000000800000000000400000000000600000000000400000000000600000000000800000000000200000000000900000000000))
 (.node 1 (.leaf 900000000000600000000000800000000000800000000000900000000000600000000000400000000000800000000000600000000000400000000000800000000000400000000000400000000000800000000000600000000000400000000000600000000000400000000000800000000000600000000000502510000000400000000000600000000000500000000000500000000000500000000000500000000000500000000000500000000000500000000000500000000000500000000000400000000000600000000000300000000000600000000000400000000000400000000000600000000000700000000000900000000000800000000000411240000000606740000000221980000000403030000000400000000000400000000000200000000000812820000000213240000000623060000000600590000000600000000000600000000000800000000000200000000000800000000000600000000000900000000000500000000000505070100000500000000000401000000000)
 (.leaf 702640000000209150000000200000000000810400000000810400000000800000000000600000000000412450000000408720000000400000000000422690000000622690000000500000000000500000000000500000000000500000000000400000000000200000000000600000000000401110000000800000000000900000000000500000000000500000000000500000000000418480000000600000000000500000000000500000000000400000000000400000000000900000000000800000000000400000000000700000000000800000000000400000000000700000000000200000000000900000000000400000000000600000000000200000000000400000000000600000000000800000000000200000000000800000000000200000000000200000000000200000000000300000000000600000000000100000000000600000000000400000000000800000000000400000000000200000000000400000000000200000000000200000000000400000000000800000000000)))
 (.node 2 (.node 1 (.leaf 600000000000600000000000600000000000400000000000606390000000600000000000200000000000200000000000400000000000400000000000900000000000900000000000600000000000400000000000400000000000900000000000400000000000800000000000400000000000800000000000400000000000800000000000800000000000900000000000900000000000600000000000400000000000600000000000400340000000800000000000600000000000800000000000600000000000400000000000400000000000200000000000800000000000900000000000400000000000600000000000400000000000200000000000400000000000200000000000600000000000400000000000100000000000900000000000600000000000400000000000600000000000600000000000400000000000400000000000700000000000400000000000700000000000500000000000500000000000500000000000500000000000400000000000700000000000800000000000)
 (.leaf 502510000000502510000000500000000000500000000000500000000000500000000000500000000000500000000000500000000000500000000000500000000000500000000000500000000000500000000000500000000000500000000000500000000000500000000000500000000000200000000000600000000000300000000000600000000000600830000000400830000000800000000000600000000000600000000000600000000000600000000000605010000000801170000000600000000000600000000000700000000000600000000000711010000000600000000000422180000000419630000000600000000000800000000000400000000000300000000000800000000000900000000000600000000000500000000000500000000000505070000000505070000000500000000000410400000000400000000000600000000000412780100000405320000000422690000000909380100000600000000000500000000000500000000000500000000000500000000000))
 (.node 1 (.leaf 400000000000600000000000500000000000400000000000500000000000500000000000500000000000500000000000500000000000500000000000400000000000400000000000200000000000600000000000900000000000100000000000700000000000400000000000800000000000400000000000800000000000800000000000400000000000200000000000913150000000400000000000600000000000200000000000800000000000600000000000800000000000100000000000800000000000900000000000600000000000600000000000600000000000400000000000200000000000411910000000400000000000400000000000600000000000600000000000600000000000605900000000600000000000400000000000800000000000800000000000600000000000400000000000400000000000600000000000400000000000800000000000700000000000900000000000700000000000600000000000800000000000700000000000400000000000800000000000)
 (.leaf 400000000000400000000000600000000000400000000000300340000000200340000000600340000000600000000000400000000000600000000000200000000000600000000000400000000000218670000000600000000000600000000000600000000000400000000000400000000000800000000000600000000000400000000000100000000000400000000000900000000000600000000000200000000000800000000000200000000000900000000000800000000000100000000000900000000000800000000000800000000000100000000000800000000000700000000000800000000000600000000000600000000000500000000000500000000000400000000000800000000000700000000000800000000000400000000000600000000000500000000000500000000000500000000000500000000000500000000000500000000000500000000000500000000000500000000000500000000000500000000000500000000000500000000000500000000000500000000000))))
 (.node 4 (.node 2 (.node 1 (.leaf 500000000000400000000000602840000000600000000000600000000000800000000000700000000000600000000000400000000000400000000000610160100000400000000000200000000000411010000000203070000000600000000000606760100000406030000000608350100000821590000000804750100000904750000000609290000000800000000000607570000000621560000000600000000000400000000000600000000000400000000000800000000000800000000000600000000000500000000000500000000000500000000000500000000000600000000000700000000000709450000000300900000000600900000000400000000000600000000000500000000000500000000000500000000000500000000000500000000000500000000000500000000000200000000000200000000000200000000000100000000000600000000000500000000000400000000000500000000000500000000000500000000000500000000000500000000000500000000000)
 (.leaf 500000000000500000000000500000000000500000000000500000000000500000000000400000000000400000000000600000000000800000000000400000000000200000000000200000000000400000000000200000000000600000000000600000000000200000000000600000000000300000000000200000000000800000000000400000000000600000000000400000000000600000000000400000000000900000000000900000000000900000000000600000000000400000000000600000000000600000000000400000000000600000000000600000000000400000000000600000000000200000000000200000000000100000000000200000000000200740000000400740000000400000000000400000000000600000000000800000000000800000000000400750000000600000000000800000000000400000000000400000000000800000000000400000000000400340000000400000000000200000000000800000000000800000000000418670000000400000000000))
 (.node 1 (.leaf 800000000000400000000000800000000000200000000000400000000000800000000000900000000000600000000000600000000000400000000000200000000000400000000000200000000000200000000000200000000000200000000000600000000000400000000000600000000000500000000000500000000000500000000000500000000000500000000000400000000000600000000000400000000000600000000000500000000000500000000000500000000000500000000000500000000000500000000000500000000000500000000000500000000000500000000000500000000000500000000000500000000000500000000000500000000000600000000000100000000000600000000000203760000000300000000000400000000000400000000000400000000000600000000000800000000000900000000000400000000000900000000000300000000000900000000000600000000000400000000000603810000000402090000000800000000000605810000000)
 (.leaf 223040000000623040000000602240000000409310000000401340000000912610000000900000000000900000000000800000000000800000000000800000000000800000000000500000000000500000000000500000000000400000000000400000000000700000000000421770000000417390000000817390621982619640000000419640000000800000000000408760000000300900000000600000000000400000000000700230000000600000000000900000000000900000000000600000000000500000000000500000000000500000000000500000000000611260000000603620000000500000000000500000000000500000000000400000000000600000000000500000000000500000000000400000000000500000000000500000000000500000000000500000000000500000000000500000000000500000000000500000000000500000000000500000000000500000000000500000000000500000000000213550000000113550000000600000000000600000000000)))
 (.node 2 (.node 1 (.leaf 700000000000800000000000600000000000600000000000400000000000600000000000600000000000200000000000600000000000400000000000600000000000400280000000200000000000200000000000400000000000400000000000700000000000400000000000900000000000900000000000400000000000400000000000900000000000200000000000600000000000200000000000600000000000200000000000600000000000400000000000800000000000800000000000600000000000800000000000800000000000700000000000600000000000600000000000400000000000400000000000400000000000900000000000400000000000800000000000600000000000400000000000400000000000400000000000600000000000600000000000800750000000700000000000400000000000400000000000400000000000900000000000800000000000600000000000400000000000800000000000600000000000600340000000800000000000600000000000)
 (.leaf 400000000000800000000000400000000000618670000000400000000000600000000000100000000000400000000000600000000000400000000000400000000000700000000000900000000000600000000000600000000000200000000000200000000000900000000000600000000000200000000000300000000000200000000000500000000000500000000000500000000000500000000000500000000000400000000000600000000000800000000000600000000000500000000000500000000000500000000000500000000000500000000000500000000000500000000000500000000000500000000000500000000000500000000000500000000000500000000000500000000000500000000000500000000000500000000000400000000000605490000000403760000000400000000000900000000000800000000000600000000000900000000000600000000000400000000000600000000000600000000000810050000000611410100000800000000000600000000000))
 (.node 1 (.leaf 600000000000211770100000205650000000622200000000122000000000612010100000822720000000603410000000622960000000421840000000922850100000822850000000300000000000600000000000400000000000800000000000300000000000900000000000800000000000900000000000600000000000400000000000600470000000418340000000400000000000119640000000619640000000400000000000600000000000400230000000600000000000212960100000300000000000600000000000500000000000500000000000500000000000500000000000500000000000500000000000511260000000400000000000900000000000803620000000500000000000500000000000500000000000500000000000500000000000500000000000500000000000600000000000200000000000200000000000500000000000400000000000600000000000500000000000500000000000500000000000500000000000500000000000500000000000500000000000)
 (.leaf 400000000000700000000000700000000000900000000000400000000000913110100000800000000000700000000000800000000000900000000000400000000000200000000000800000000000400000000000400000000000200000000000200000000000100000000000200000000000200000000000100000000000300000000000200000000000200000000000900000000000200000000000600000000000800000000000600000000000400000000000400000000000400000000000800000000000800000000000600000000000100000000000400000000000900000000000400000000000700000000000600000000000400000000000100000000000200000000000700000000000600000000000813130000000213130000000200000000000000000000000400000000000400000000000400000000000601470000000200000000000200000000000200000000000400000000000200000000000600000000000600000000000400000000000200000000000600000000000))))))
 (.node 16 (.node 8 (.node 4 (.node 2 (.node 1 (.leaf 900000000000600000000000100000000000400000000000900000000000800000000000900000000000800000000000900000000000800000000000800000000000600000000000600000000000600340000000400340000000900000000000800000000000400000000000800000000000100000000000618670000000418670000000400000000000600000000000400000000000600000000000800000000000100000000000600000000000600000000000800000000000600000000000300000000000200000000000200000000000400000000000600000000000300000000000200000000000800700000000400000000000400000000000600000000000800000000000900000000000700000000000500000000000500000000000500000000000500000000000500000000000500000000000500000000000500000000000500000000000400000000000600000000000600000000000500000000000500000000000500000000000500000000000500000000000500000000000)
 (.leaf 500000000000500000000000500000000000500000000000500000000000500000000000500000000000500000000000400000000000922300000000622300000000600000000000400000000000600000000000800000000000600000000000600000000000600000000000600000000000609110000000200000000000800000000000800000000000800000000000710050000000900000000000200000000000610200100000422000000000612010000000600100000000400000000000622960000000400000000000800000000000405980000000400000000000900000000000600000000000400000000000800000000000400000000000600000000000600230000000400000000000600000000000400000000000600000000000500000000000500000000000500000000000507890000000207890000000700000000000212520000000400000000000600000000000400000000000600000000000500000000000500000000000500000000000500000000000400000000000))
 (.node 1 (.leaf 900000000000800000000000900000000000800000000000612220100000800000000000800000000000700000000000200000000000600000000000200000000000800000000000200000000000700000000000800000000000600000000000200000000000400000000000400000000000400000000000200000000000600000000000400000000000200000000000100000000000600000000000400000000000800000000000600000000000600000000000200000000000700000000000800000000000600000000000400000000000400000000000800000000000900000000000300000000000400000000000700000000000900000000000600000000000400000000000700000000000300000000000200000000000600000000000600000000000600000000000400000000000600000000000800000000000900000000000800000000000800000000000800000000000406690000000800000000000000000000000400000000000400000000000600000000000400000000000)
 (.leaf 100000000000600000000000400000000000600000000000600000000000900000000000600000000000600340000000400000000000800000000000800000000000218670000000418670000000400000000000300000000000400000000000600000000000400000000000400000000000400000000000100000000000600000000000400000000000600000000000200000000000600000000000400700000000200000000000200000000000100000000000300000000000400000000000100000000000900000000000800000000000800000000000400000000000700000000000900000000000600000000000500000000000500000000000600000000000508980000000500000000000500000000000400000000000200000000000200000000000600000000000500000000000500000000000500000000000500000000000500000000000500000000000500000000000500000000000500000000000500000000000500000000000500000000000400000000000222300000000)))
 (.node 2 (.node 1 (.leaf 605350000000822300000000400000000000700000000000700000000000100000000000800000000000600000000000600000000000800000000000600000000000200000000000809110000000609110000000200000000000900000000000600000000000900000000000600000000000600260000000400000000000900000000000600000000000900000000000800000000000800000000000600000000000204570000000222630000000622630000000600000000000600000000000500000000000500000000000500000000000400470000000400000000000400000000000800000000000822460000000400000000000700000000000900000000000400000000000622260000000622190000000600000000000800000000000600000000000800000000000900000000000600000000000500000000000507890000000400000000000200000000000600000000000500000000000500000000000500000000000400000000000300000000000600000000000300000000000)
 (.leaf 500000000000500000000000500710000000500000000000500000000000500000000000400000000000400000000000800000000000412220000000200000000000900000000000400000000000400000000000200000000000600000000000400000000000800000000000700000000000100000000000600000000000400000000000400000000000100000000000400000000000800000000000900000000000400000000000600000000000200000000000200000000000600000000000700000000000100000000000400000000000600000000000400000000000600000000000400000000000100000000000400000000000400000000000600000000000400000000000300000000000200000000000600000000000600000000000600000000000000000000000900000000000400000000000800000000000800000000000900000000000800000000000900000000000800000000000400000000000000000000000322120000000400000000000600000000000400000000000))
 (.node 1 (.leaf 600000000000400000000000400000000000600000000000400000000000600000000000200000000000100000000000100000000000100000000000100000000000800000000000800000000000600000000000600000000000600000000000400000000000200000000000100000000000600000000000218670000000218670000000400000000000600000000000800000000000600000000000600000000000400000000000200000000000600000000000400000000000200000000000900000000000800000000000400000000000600000000000800000000000600000000000600000000000500000000000500000000000500000000000500000000000500000000000400000000000500000000000500000000000500000000000500000000000500000000000500000000000500000000000500000000000500000000000500000000000200000000000400000000000900000000000600000000000600000000000405580000000205580000000800000000000703300000000)
 (.leaf 303300000000600000000000600000000000800000000000300000000000600000000000600000000000200000000000200000000000400000000000600100000000802630000000802630000000403880000000804790000000900000000000600000000000600000000000500000000000500000000000500000000000400000000000813510100000400000000000400000000000200000000000422460000000422460000000400000000000200000000000400000000000300000000000222260000000422260000000603170000000200000000000800000000000600000000000900000000000412830000000900000000000600000000000800000000000600000000000500000000000500000000000500000000000200000000000300000000000500000000000500000000000500000000000900000000000600000000000600000000000600000000000500000000000500000000000500000000000500000000000400000000000400000000000800000000000800000000000))))
 (.node 4 (.node 2 (.node 1 (.leaf 800000000000400000000000400000000000400000000000400000000000400000000000400000000000300000000000200000000000600000000000300000000000200000000000600000000000600000000000400000000000600000000000800000000000800000000000300000000000300000000000400000000000800000000000800000000000400000000000400000000000400000000000700000000000200000000000100000000000400000000000400000000000400000000000300000000000200000000000100000000000100000000000200000000000100000000000400000000000600000000000600000000000600000000000800000000000400000000000400000000000200000000000800000000000200000000000200000000000600000000000900000000000600000000000400000000000000000000000000000000000400000000000000000000000000000000000622120000000400000000000812180000000112180000000900000000000400000000000)
 (.leaf 100000000000100000000000400000000000400000000000600000000000400000000000700000000000100000000000600000000000400000000000600000000000400000000000400000000000318670000000218670000000400000000000100000000000200000000000613270000000600000000000800000000000100000000000600000000000200000000000100000000000900000000000200000000000800000000000600000000000600000000000600000000000600000000000600000000000400000000000400000000000400000000000700000000000700000000000600000000000400000000000600000000000400000000000600000000000400000000000600000000000500000000000500000000000500000000000500000000000500000000000500000000000500000000000500000000000500000000000500000000000500000000000500000000000400000000000600000000000600000000000405580000000705580000000705580000000100000000000))
 (.node 1 (.leaf 200000000000603300000000800000000000700000000000614130000000600000000000600000000000900000000000800000000000600000000000600000000000900000000000900000000000800000000000600000000000300000000000200000000000600000000000600260000000206250000000600100000000700000000000800000000000609970000000800000000000600000000000600000000000600000000000800000000000307490100000700000000000400000000000100000000000200000000000200000000000100650000000200000000000200000000000222260000000722260000000210580000000810580000000600000000000100000000000400000000000600000000000600000000000500000000000400000000000600000000000500000000000500000000000400000000000600000000000400000000000600000000000700000000000600000000000400000000000800000000000800000000000400000000000400000000000100000000000)
 (.leaf 100000000000600000000000400000000000400000000000200000000000200000000000400000000000400000000000400000000000700000000000600000000000400000000000700000000000200000000000800000000000700000000000400000000000400000000000300000000000400000000000400000000000400000000000800000000000400000000000300000000000600000000000200000000000200000000000200000000000600000000000616210000000800000000000600000000000900000000000800000000000400000000000200000000000300000000000100000000000900000000000600000000000900000000000800000000000600000000000000000000000400000000000900000000000800000000000600000000000400000000000800000000000400000000000800000000000600000000000801090000000600000000000400000000000700000000000400000000000900000000000800000000000800000000000800000000000600000000000)))
 (.node 2 (.node 1 (.leaf 418670000000218670000000218670000000400000000000400000000000100000000000100000000000800000000000100000000000900000000000800000000000600000000000400000000000900000000000600000000000200000000000600000000000200000000000400000000000200000000000400000000000600000000000100000000000900000000000600000000000400000000000500000000000400000000000600000000000400000000000600000000000500000000000500000000000500000000000500000000000500000000000500000000000500000000000500000000000500000000000500000000000500000000000400000000000400000000000200000000000400000000000600000000000403300000000403300000000114130000000814130000000600000000000800000000000600000000000000000000000200000000000600000000000800000000000600000000000000000000000600000000000600000000000300000000000800000000000)
 (.leaf 600000000000200320000000800100000000806610000000700000000000400000000000600000000000600000000000912920000000600000000000200000000000600000000000900000000000800000000000500000000000500000000000500000000000409320000000405170000000205170000000200000000000200000000000200000000000200000000000400000000000400000000000603890000000323260000000200000000000910580000000600000000000600000000000600000000000300000000000200000000000200000000000200000000000400000000000500000000000500000000000500000000000500000000000500000000000500000000000500000000000500000000000500000000000500000000000500000000000500000000000200000000000600000000000600000000000600000000000500000000000400000000000400000000000400000000000600000000000400000000000700000000000900000000000400000000000800000000000))
 (.node 1 (.leaf 800000000000800000000000600000000000300000000000200000000000400000000000400000000000100000000000800000000000800000000000800000000000600000000000400000000000200000000000200000000000400000000000300000000000600520000000400000000000400000000000200000000000200000000000100000000000300000000000600000000000200000000000200000000000800000000000600000000000700000000000600000000000400000000000400000000000600000000000600000000000600000000000000000000000400000000000800000000000400000000000800000000000800000000000900000000000800000000000600000000000600000000000600000000000400000000000200000000000200000000000400000000000400000000000100000000000200000000000800510000000600510000000618670000000418670000000600000000000400000000000400000000000900000000000900000000000400000000000)
 (.leaf 600000000000600000000000600000000000100000000000600000000000400000000000600000000000200000000000400000000000600000000000200000000000200000000000600000000000504610000000500000000000400000000000400000000000500000000000500000000000500000000000500000000000500000000000500000000000400000000000100000000000300000000000807700000000807700000000800000000000600000000000400000000000400000000000422560000000122560000000200000000000300000000000600000000000600000000000200000000000200000000000200000000000200000000000300000000000300000000000600000000000800000000000203010000000600000000000300000000000300000000000300000000000600000000000600000000000800320000000400000000000600000000000409010100000209010000000203650100000109910100000609910000000902120000000600000000000800000000000)))))
 (.node 8 (.node 4 (.node 2 (.node 1 (.leaf 900000000000500000000000400000000000300000000000200000000000600000000000200000000000200000000000600000000000100000000000600000000000600000000000500000000000500000000000500000000000500000000000500000000000400000000000700000000000200000000000200000000000600000000000600000000000500000000000500000000000500000000000500000000000400000000000400000000000900000000000600000000000700000000000700000000000700000000000400000000000800000000000400000000000800000000000900000000000600000000000400000000000900000000000800000000000800000000000900000000000600000000000400000000000400000000000200000000000600000000000200000000000400000000000200000000000600000000000200000000000400520000000400000000000100000000000100000000000400000000000700000000000600000000000400000000000400000000000)
 (.leaf 800000000000400000000000600000000000400000000000600000000000400000000000400000000000600000000000800000000000800000000000600000000000800000000000400000000000400000000000400000000000800000000000700000000000700000000000700000000000800000000000800000000000800000000000400000000000600000000000400000000000800000000000800000000000600000000000700000000000800000000000200510000000100510000000600000000000600000000000400000000000600000000000600000000000608800000000400000000000200000000000400000000000600000000000200000000000600000000000800000000000800000000000800000000000600000000000400000000000900000000000400000000000300000000000300000000000600000000000600000000000100000000000200000000000200000000000400000000000400000000000300000000000600000000000400000000000700000000000))
 (.node 1 (.leaf 100000000000800000000000600000000000500000000000500000000000500000000000500000000000500000000000500000000000500000000000500000000000500000000000500000000000100000000000300000000000617370621955100000000000319240621967819240000000900000000000600000000000600000000000100000000000300000000000800000000000300000000000400000000000600000000000400000000000700000000000700000000000109010000000400850000000200000000000100850000000809330000000800000000000600000000000900000000000900000000000800000000000400600000000803250000000200000000000200000000000200000000000200000000000600000000000100000000000200000000000200000000000200000000000200000000000200000000000206910000000100000000000500000000000500000000000500000000000500000000000500000000000500000000000500000000000200000000000)
 (.leaf 700000000000500000000000500000000000500000000000500000000000500000000000500000000000500000000000500000000000500000000000600000000000700000000000800000000000800000000000400000000000200000000000100000000000800000000000800000000000800000000000900000000000600000000000800000000000800000000000400000000000400000000000800000000000200000000000900000000000800000000000800000000000400000000000800000000000700000000000800000000000300000000000300000000000600000000000600000000000600000000000800000000000600000000000900000000000600000000000400000000000300000000000200000000000400000000000200000000000200000000000400000000000200000000000100000000000600000000000200000000000100000000000400000000000400000000000800000000000400520000000800000000000200000000000200000000000200000000000)))
 (.node 2 (.node 1 (.leaf 200000000000400000000000400000000000400000000000400000000000600000000000400000000000600000000000800000000000300000000000200000000000200000000000200000000000400000000000100000000000800000000000800000000000400000000000200940000000400000000000400000000000900000000000400000000000600000000000000000000000400000000000000000000000800000000000800000000000400000000000800000000000700000000000600000000000400000000000400000000000600000000000800000000000800000000000300000000000300460000000200460000000100460000000900000000000800000000000800000000000800000000000200000000000600000000000800000000000400510000000600000000000600000000000200000000000400000000000800000000000900000000000600000000000400000000000400000000000200000000000600000000000100000000000400000000000400000000000)
 (.leaf 600000000000300000000000200000000000400000000000600000000000423580000000200000000000400000000000800000000000600000000000800000000000600000000000600000000000400000000000500000000000500000000000800000000000600000000000500000000000500000000000500000000000500000000000500000000000500000000000400000000000500000000000111780621912300000000000600000000000404280000000104280000000200000000000200000000000800000000000400000000000200000000000900000000000600000000000600000000000600000000000600000000000400000000000200000000000600000000000200000000000200000000000600000000000700320000000600000000000809740000000809740000000200330000000200330000000112040000000611670000000400000000000800000000000800000000000800000000000800000000000808090000000100000000000100000000000707050000000))
 (.node 1 (.leaf 100000000000200600000000800600000000200000000000100000000000200000000000500000000000418350000000518350621984500000000000500000000000500000000000500000000000500000000000500000000000400000000000600000000000700000000000600000000000800000000000800000000000200000000000200000000000400000000000400000000000200000000000800000000000600000000000400000000000600000000000600000000000400000000000800000000000400000000000600000000000600000000000700000000000600000000000900000000000600000000000600000000000203550000000203550000000300000000000100000000000100000000000200000000000400000000000100000000000600000000000400000000000100000000000400520000000400000000000206730000000400000000000400000000000100000000000200000000000800000000000400000000000600000000000600000000000400000000000)
 (.leaf 800000000000600000000000400000000000400000000000400000000000800000000000800000000000400000000000600000000000800000000000000000000000400000000000200000000000600000000000400000000000300000000000600000000000400000000000600000000000400000000000600000000000900000000000600000000000200000000000900000000000200000000000400000000000400000000000600000000000400000000000100000000000600000000000600000000000600000000000400000000000600000000000300000000000400000000000100000000000600000000000400000000000400000000000123580000000400000000000100000000000100000000000400000000000600000000000600000000000400000000000500000000000500000000000200000000000600000000000500000000000500000000000500000000000500000000000500000000000500000000000814940621958500000000000519690621941500000000000))))
 (.node 4 (.node 2 (.node 1 (.leaf 200000000000605530000000300000000000200000000000204280000000200000000000202760000000600000000000400000000000600000000000900000000000900000000000900000000000900000000000600000000000800000000000400000000000700000000000600000000000200000000000400000000000700000000000800390000000100390000000121760000000408710100000606750000000405240000000600000000000412040000000909830100000800000000000600000000000600000000000800000000000700000000000800000000000600000000000400000000000600000000000219700000000622880000000219670000000500000000000500000000000500000000000500000000000500000000000500000000000500000000000618350000000500000000000500000000000500000000000500000000000500000000000500000000000500000000000500000000000500000000000700000000000400000000000400000000000400000000000)
 (.leaf 600000000000600000000000400000000000400000000000700000000000200000000000600000000000400000000000300000000000600000000000600000000000900000000000800000000000800000000000900000000000800000000000900000000000400000000000300000000000800000000000700000000000200000000000200000000000900000000000600000000000200000000000800000000000600000000000200690000000100000000000600000000000400000000000200000000000200000000000100000000000600000000000200000000000600000000000200000000000600000000000400000000000200000000000800000000000800000000000700000000000400000000000600000000000300000000000600000000000400000000000200000000000600000000000100000000000400000000000400000000000800000000000900000000000600000000000800000000000400000000000400000000000400000000000800000000000600000000000))
 (.node 1 (.leaf 800000000000800000000000800000000000400000000000400000000000800000000000400000000000600000000000900000000000900000000000900000000000800460000000700000000000400000000000700000000000400000000000200000000000900000000000300000000000600000000000400000000000600000000000400000000000400000000000600000000000400000000000600000000000300000000000600000000000200000000000900000000000400000000000300000000000800000000000400000000000100000000000400000000000600000000000400000000000600000000000200000000000400000000000400000000000800000000000400000000000100000000000600000000000400000000000800000000000800000000000400000000000500000000000500000000000200000000000200000000000500000000000500000000000500000000000500000000000500000000000500000000000500000000000500000000000600000000000)
 (.leaf 500000000000500000000000400000000000600000000000300000000000900000000000900000000000600000000000600000000000200000000000600000000000600000000000300000000000300000000000700000000000200000000000600000000000600000000000600000000000400000000000800000000000408250100000108250000000400000000000900000000000800000000000800000000000200000000000900000000000300330000000200000000000209830000000209830000000200000000000100000000000900000000000800000000000200000000000400000000000700000000000800000000000422550000000822550000000409140000000800000000000600000000000100000000000919700000000619700000000319700000000500000000000500000000000500000000000500000000000500000000000500000000000500000000000500000000000500000000000500000000000500000000000500000000000402980000000900000000000)))
 (.node 2 (.node 1 (.leaf 800000000000500000000000500000000000500000000000500000000000500000000000500000000000500000000000400000000000600000000000800000000000100000000000600000000000400000000000300000000000800000000000300000000000600000000000400000000000800000000000600000000000400000000000800000000000300000000000300000000000100000000000400000000000900000000000800000000000200000000000200000000000400000000000600000000000200000000000200000000000600000000000400000000000200000000000800000000000600000000000600690000000400000000000200000000000200000000000600000000000100000000000600000000000100000000000400520000000600000000000400000000000600000000000600000000000200000000000400000000000400000000000200000000000100000000000900000000000600000000000600000000000200000000000410300000000400000000000)
 (.leaf 400000000000200000000000300000000000600000000000800000000000800000000000200000000000800000000000800000000000400000000000400000000000800000000000700000000000800000000000800000000000800000000000800000000000700000000000700000000000400000000000200000000000800000000000400000000000400000000000700000000000600000000000300000000000200000000000600000000000400000000000200000000000200000000000000000000000600000000000400000000000607290000000600000000000200000000000400000000000400000000000600000000000600000000000600000000000600000000000700000000000400000000000600000000000200000000000600000000000400000000000100000000000700000000000700000000000600000000000600000000000500000000000600000000000500000000000500000000000500000000000500000000000500000000000500000000000500000000000))
 (.node 1 (.leaf 600000000000500000000000400000000000100000000000115010621949800000000000200000000000400000000000200000000000200000000000400000000000400000000000900000000000900000000000600000000000300000000000300000000000300000000000200000000000600000000000400000000000200000000000600000000000300000000000600000000000400000000000300000000000200000000000800000000000400000000000400000000000800390000000400000000000405370000000400010000000200010000000400000000000910570000000910570000000600000000000811680000000400000000000900000000000410900000000400930000000200930000000200000000000600000000000219710621953200000000000300000000000600000000000500000000000400000000000200000000000200000000000600000000000500000000000500000000000102980000000902980000000602980000000500000000000500000000000)
 (.leaf 500000000000500000000000500000000000500000000000400000000000900000000000800000000000800000000000800000000000800000000000800000000000400000000000400000000000900000000000400000000000800000000000700000000000600000000000200000000000400000000000200000000000600000000000400000000000900000000000900000000000900000000000600000000000200000000000200000000000200000000000300000000000400000000000200000000000600000000000400000000000100000000000600000000000200000000000400000000000200580000000400000000000300000000000600000000000300000000000200000000000206500000000200000000000200000000000206190000000400000000000100000000000700000000000400000000000600000000000200000000000210300000000400000000000800000000000400000000000700000000000600000000000200000000000200000000000400000000000)))))))
 (.node 32 (.node 16 (.node 8 (.node 4 (.node 2 (.node 1 (.leaf 300000000000800000000000200000000000200000000000100000000000300000000000200000000000200000000000700000000000900000000000400000000000800000000000600000000000400000000000103020100000603020000000200000000000200000000000600000000000800000000000600000000000600000000000400000000000600000000000600000000000600000000000400000000000900000000000200000000000100000000000200000000000900000000000600000000000400000000000600000000000400000000000800000000000300000000000600000000000224050000000800000000000400000000000800000000000300000000000611320000000900000000000600000000000700000000000400000000000600000000000500000000000500000000000500000000000500000000000500000000000500000000000500000000000400000000000318861421927400000000000600000000000400000000000600000000000900000000000)
 (.leaf 800000000000600000000000200000000000700000000000200000000000400000000000600000000000400000000000400000000000408590000000600000000000100010000000200000000000119010000000119010000000900000000000900000000000711680000000811680000000300000000000800000000000801540000000221850000000400000000000810900000000400000000000812170000000900930000000800930000000200000000000200000000000801230000000500000000000500000000000800000000000200000000000600000000000500000000000500000000000500000000000500000000000400000000000319730000000919730621970419750611982919780000000200000000000900000000000600000000000500000000000500000000000500000000000400000000000200000000000300000000000800000000000400000000000200000000000600000000000400000000000100000000000900000000000800000000000400000000000))
 (.node 1 (.leaf 700000000000800000000000400000000000600000000000700000000000900000000000600000000000600000000000400000000000400000000000600000000000200000000000200000000000600000000000400000000000400000000000100000000000200000000000600000000000400000000000800000000000200000000000200000000000900000000000600000000000400000000000200000000000200580000000400000000000600000000000000000000000300000000000200000000000200000000000400000000000400000000000400000000000300000000000600000000000600000000000200000000000400000000000400000000000600000000000600000000000400000000000400000000000300000000000200000000000600000000000400000000000600000000000200000000000200000000000400000000000400000000000600000000000400000000000200000000000200000000000200000000000800000000000600000000000700000000000)
 (.leaf 600000000000400000000000400000000000200000000000400000000000800000000000800000000000400000000000900000000000600000000000800000000000600000000000400000000000800000000000100000000000800000000000800000000000200000000000200000000000600000000000600000000000600000000000300000000000200000000000600000000000200000000000600000000000200000000000200000000000400000000000100000000000400000000000400000000000200000000000600000000000200000000000200000000000600000000000900000000000800000000000800000000000400000000000900000000000200000000000900000000000200000000000500000000000500000000000500000000000500000000000500000000000500000000000500000000000100000000000800000000000500000000000400000000000300000000000219760000000415620000000115620000000300000000000400000000000700000000000)))
 (.node 2 (.node 1 (.leaf 600000000000800000000000600000000000800870000000800000000000600000000000300000000000800000000000418720000000419800000000800000000000408600100000708600000000800000000000300000000000300010000000300010000000600010000000200010000000119010000000100000000000900000000000900000000000800000000000800000000000600000000000102930000000102910000000200000000000400000000000200000000000900000000000819770621924600000000000500000000000200000000000300000000000200000000000800000000000500000000000500000000000500000000000500000000000500000000000500000000000500000000000500000000000519780000000519780621966500000000000500000000000500000000000500000000000500000000000500000000000500000000000500000000000400000000000800000000000400000000000700000000000200000000000400000000000200000000000)
 (.leaf 600000000000800000000000900000000000800000000000800000000000916231421969600000000000800000000000800000000000900000000000608310100000300000000000200000000000800000000000800000000000400000000000400000000000600000000000300000000000300000000000200000000000300000000000210780000000600000000000600000000000200000000000200000000000600630000000200630000000400000000000400000000000700000000000200000000000600000000000600000000000400000000000600000000000300000000000600000000000300000000000200000000000100000000000400000000000400000000000800000000000700000000000600000000000600000000000900000000000900000000000900000000000800000000000400000000000600000000000400000000000200000000000400000000000100000000000300000000000600000000000100000000000600000000000200000000000400000000000))
 (.node 1 (.leaf 200000000000600000000000800000000000700000000000900000000000600000000000400000000000200000000000600000000000621720000000600000000000400000000000200000000000100000000000900000000000900000000000900000000000900000000000800000000000400000000000200000000000300000000000300000000000200000000000800000000000800000000000600000000000900000000000700000000000400000000000800000000000600000000000600000000000400000000000400000000000700000000000100000000000600000000000600000000000900000000000400000000000400000000000500000000000500000000000100000000000617400621926400000000000617410611932413930000000400000000000400000000000400000000000400000000000100000000000600000000000800000000000900000000000600000000000600000000000900000000000800000000000400000000000600000000000400000000000)
 (.leaf 600000000000300000000000400000000000600000000000400000000000100010000000800010000000419810621956200000000000100000000000607760000000313450000000300000000000212880100000700000000000202930000000402910621957119400621942807220000000600000000000100000000000100000000000500000000000400000000000200000000000900000000000600000000000500000000000500000000000500000000000500000000000500000000000500000000000500000000000500000000000500000000000500000000000500000000000500000000000500000000000500000000000400000000000800000000000700000000000600000000000413220000000702600000000900000000000600000000000600000000000600000000000800000000000202310000000600000000000600000000000211380000000200000000000800000000000400000000000600000000000600000000000200000000000300000000000209820000000))))
 (.node 4 (.node 2 (.node 1 (.leaf 400000000000200000000000200000000000500000000000400000000000600000000000600000000000400000000000400000000000400000000000100000000000600000000000400000000000600000000000600000000000100000000000200000000000100000000000800000000000700000000000400000000000200000000000600000000000300000000000200000000000200000000000400000000000200000000000600000000000200000000000200000000000200000000000200000000000900000000000200000000000800000000000400000000000800000000000700000000000800000000000800000000000600000000000400000000000300000000000200000000000800000000000400000000000700000000000400000000000400000000000200000000000100000000000800000000000900000000000600000000000900000000000800000000000400000000000300000000000300000000000200000000000800000000000200000000000800000000000)
 (.leaf 800000000000800000000000600000000000600000000000400000000000400000000000600000000000600000000000400000000000400000000000100000000000100000000000600000000000200000000000600000000000800000000000400000000000800000000000800000000000700000000000700000000000200000000000600000000000500000000000500000000000500000000000500000000000400000000000719840000000100000000000600000000000115720000000200000000000400000000000800000000000900000000000400000000000900000000000800000000000200000000000600000000000300000000000200000000000300000000000600000000000900000000000600000000000400000000000200000000000700000000000219820621936300000000000200000000000200000000000600010000000800010000000800000000000900010000000900010000000900010000000900010000000900010000000600010000000400030000000))
 (.node 1 (.leaf 200000000000100000000000200000000000213450000000106110000000400000000000200000000000600000000000200000000000600000000000400000000000800000000000600000000000600000000000600000000000500000000000500000000000500000000000500000000000500000000000500000000000500000000000500000000000500000000000500000000000500000000000500000000000500000000000500000000000500000000000200000000000700000000000800000000000600000000000700000000000400000000000117800621968902430000000606630000000413220000000713220000000600000000000900000000000600000000000400000000000600000000000600000000000600000000000400000000000700000000000600000000000400000000000200000000000600000000000300000000000613440000000200000000000200000000000500000000000500000000000500000000000500000000000400000000000701860000000)
 (.leaf 700000000000400000000000600000000000600000000000200000000000600000000000200000000000200020000000200020000000200020000000400000000000800000000000400000000000400000000000200000000000400000000000400000000000600000000000400000000000100000000000200000000000400000000000300000000000600000000000200000000000600000000000400000000000200000000000100000000000200000000000100000000000800000000000600000000000700000000000400000000000200000000000100000000000400000000000100000000000600000000000400000000000200000000000600000000000700000000000200000000000200000000000800000000000200000000000200000000000300000000000600000000000200000000000600000000000600000000000200000000000200000000000600000000000800000000000700000000000400000000000600000000000400000000000600000000000400000000000)))
 (.node 2 (.node 1 (.leaf 300000000000900000000000900000000000900000000000400000000000500000000000500000000000600000000000508120100000500000000000500000000000424680621931100000000000600000000000400000000000700000000000800000000000800000000000800000000000600000000000400000000000600000000000600000000000800000000000600000000000300000000000600000000000400000000000200000000000600000000000202720100000202720000000200000000000400000000000800000000000100000000000800000000000800000000000600000000000300000000000200000000000200010000000200000000000600040000000300010000000401530000000601530000000200000000000600000000000217770000000200000000000300000000000400000000000700000000000900000000000800000000000618880000000800000000000217760000000207270000000400000000000500000000000500000000000500000000000)
 (.leaf 500000000000500000000000500000000000500000000000501480100000501480000000501480000000500000000000500000000000500000000000400000000000200000000000700000000000600000000000800000000000400000000000300000000000218920000000209620000000100000000000200000000000200000000000200000000000200000000000600000000000600000000000600000000000600000000000400000000000600000000000400000000000600000000000200000000000200000000000503820000000500000000000500000000000500000000000500000000000500680000000506640000000500000000000400000000000801860000000401860000000600000000000300000000000400000000000200000000000200000000000100000000000200020000000421690000000200000000000200000000000200000000000100000000000800000000000700000000000400000000000400000000000200000000000400000000000600000000000))
 (.node 1 (.leaf 800140000000900000000000400000000000600000000000200000000000400000000000200000000000100000000000100000000000800000000000600000000000400000000000800000000000600000000000300000000000600000000000200000000000200000000000400000000000100000000000600000000000200000000000600000000000200000000000600000000000200000000000200000000000200000000000200000000000100000000000200000000000800000000000800000000000600000000000900000000000800000000000800000000000900000000000800000000000700000000000200000000000200000000000600000000000200000000000600000000000400000000000600000000000400000000000200000000000200000000000200000000000200000000000400000000000100000000000600000000000800000000000600000000000800000000000400000000000100000000000100000000000800000000000600000000000500000000000)
 (.leaf 500000000000500000000000500000000000500000000000400000000000400000000000800000000000800000000000800000000000800000000000600000000000600000000000800000000000900000000000800000000000700000000000600000000000600000000000400000000000600000000000400000000000400000000000200000000000600000000000400000000000200000000000200000000000400000000000400000000000600000000000200030000000213500100000200030000000400000000000600000000000600000000000400000000000100000000000800000000000600000000000618881421916100000000000300000000000317760000000107740000000600000000000500000000000500000000000500000000000500000000000500000000000500000000000501480000000501480000000500000000000500000000000500000000000400000000000700000000000900000000000700000000000400000000000600000000000318920000000)))))
 (.node 8 (.node 4 (.node 2 (.node 1 (.leaf 200000000000500000000000900000000000600000000000200000000000600000000000100000000000400000000000300000000000600000000000200000000000507260000000500000000000500000000000400680000000500680000000700000000000400000000000600000000000400000000000607790000000400000000000400000000000700000000000700000000000800000000000700000000000100000000000400000000000100020000000400000000000600000000000400000000000400000000000200000000000200000000000400000000000400000000000600000000000700000000000700000000000700000000000700000000000400500000000800500000000400000000000800000000000600000000000600000000000400000000000600000000000400000000000100000000000200000000000800000000000400000000000700000000000600000000000600000000000200000000000300000000000200000000000600000000000600000000000)
 (.leaf 200000000000600000000000200000000000100000000000600000000000400000000000400000000000800000000000800000000000900000000000300000000000200000000000305930000000605930000000600000000000600000000000200000000000200000000000400000000000400000000000600000000000400000000000300000000000500000000000500000000000500000000000500000000000500000000000500000000000500000000000600000000000400000000000700000000000400000000000700000000000800000000000100000000000600000000000700000000000800000000000800000000000800000000000900000000000900000000000600000000000700000000000800000000000600000000000600000000000400000000000600000000000400000000000200000000000600000000000200000000000600000000000400000000000400000000000300000000000100000000000200000000000600000000000800040000000800040000000))
 (.node 1 (.leaf 900040000000800030000000600030000000400030000000400000000000600000000000800000000000905260000000800000000000100000000000200000000000618510621948600000000000418540000000618540621836507740000000500000000000500000000000500000000000400000000000600000000000500000000000500000000000500000000000500000000000500000000000200000000000400000000000100000000000400000000000600000000000400000000000700000000000600000000000500000000000500000000000500000000000500000000000600000000000400000000000700000000000200000000000200000000000100000000000300000000000200000000000300000000000200000000000500000000000500000000000400000000000600000000000503080100000500000000000500000000000507880000000700000000000704520000000800000000000600000000000900000000000300000000000607790000000400000000000)
 (.leaf 800000000000600020000000400000000000400000000000400000000000200000000000100000000000100000000000100000000000100000000000100000000000200000000000600000000000400000000000400000000000700000000000700000000000700000000000200000000000800000000000212500100000200000000000200000000000600000000000400000000000100000000000200000000000200000000000200000000000900000000000800000000000700000000000400000000000400000000000300000000000200000000000100000000000100000000000600000000000900000000000600000000000400000000000400000000000200000000000600000000000600000000000600000000000600000000000400000000000900000000000400000000000700000000000600000000000700000000000900000000000600000000000600000000000700000000000800000000000600000000000700000000000400000000000600000000000600000000000)))
 (.node 2 (.node 1 (.leaf 500000000000500000000000500000000000500000000000500000000000500000000000500000000000418960621953600000000000400000000000400000000000600000000000213070611947800000000000600000000000600000000000700000000000400000000000414900621915600000000000400000000000600000000000800000000000800000000000900000000000600000000000100000000000600000000000400000000000200000000000600000000000600000000000200000000000400000000000600000000000300000000000600040000000600040000000400040000000100040000000600000000000600030000000400030000000800030000000607190000000200000000000200000000000900000000000200000000000800120000000800000000000600000000000400000000000800000000000600000000000200000000000200000000000600000000000500000000000512460100000512460000000300000000000500000000000500000000000)
 (.leaf 500000000000500000000000500000000000500000000000500000000000500000000000400000000000700000000000300000000000400000000000419850000000119850611960600000000000800000000000800000000000900000000000800000000000500000000000500000000000500000000000500000000000500000000000400000000000900000000000300000000000300000000000600000000000608740100000500000000000500000000000500000000000500000000000500000000000500000000000500000000000500000000000500000000000700000000000600000000000600000000000500000000000500000000000500000000000800000000000400000000000800000000000400000000000600020000000400000000000400000000000800000000000400000000000900000000000700000000000800000000000400000000000200000000000600000000000003060000000800000000000400000000000400000000000400000000000200000000000))
 (.node 1 (.leaf 400000000000200000000000600000000000400000000000400000000000000000000000600000000000200000000000200000000000800000000000600000000000600000000000600000000000600000000000000000000000600000000000400000000000400000000000000000000000200000000000100000000000600000000000800000000000800000000000200000000000600000000000300000000000300000000000800000000000800000000000800000000000800000000000700000000000600000000000422410000000800000000000400000000000900000000000600000000000500000000000500000000000500000000000500000000000400000000000400000000000400000000000200000000000700000000000200000000000600000000000400000000000600000000000800000000000200000000000200000000000400000000000100000000000218871411911804340000000600000000000900000000000600000000000400000000000600000000000)
 (.leaf 700000000000900000000000600000000000600000000000204330000000600000000000200000000000600000000000900000000000300000000000600000000000800000000000900000000000600000000000400000000000318420000000600000000000600040000000400000000000100000000000200000000000600030000000400000000000800030000000701730000000801730000000907190000000200120000000800000000000400000000000900000000000700000000000500000000000500000000000200000000000608320621929500000000000500000000000500000000000500000000000500000000000500000000000500000000000700000000000400000000000400000000000600000000000400000000000600000000000119870611974600000000000500000000000500000000000500000000000500000000000200000000000800000000000800000000000900000000000500000000000500000000000500000000000400000000000400000000000))))
 (.node 4 (.node 2 (.node 1 (.leaf 800000000000900000000000400000000000600000000000600000000000800000000000613700000000200000000000300000000000700000000000508740000000500000000000500000000000500000000000400000000000800000000000700000000000800000000000700000000000600000000000500000000000500000000000200000000000200000000000600000000000900000000000900000000000700000000000700000000000300000000000200000000000600000000000400000000000800000000000800000000000800000000000400000000000700000000000700000000000400000000000800000000000800000000000800000000000600000000000400000000000200000000000700000000000200000000000200000000000100000000000200000000000203060000000100000000000800000000000400000000000800000000000600000000000800000000000800000000000700000000000700000000000900000000000800000000000600000000000)
 (.leaf 300000000000200000000000100000000000100000000000100000000000200000000000400000000000200000000000200000000000200000000000200000000000200000000000200000000000200000000000900000000000400000000000600000000000600000000000300000000000200000000000100000000000400000000000600000000000200000000000200000000000200000000000400000000000900000000000600000000000400000000000800000000000800000000000400000000000300000000000200000000000200000000000200000000000600000000000400000000000800000000000800000000000900000000000600000000000400000000000800000000000200000000000600000000000600000000000400000000000600000000000500000000000500000000000400000000000509710000000500000000000500000000000500000000000500000000000400000000000419880621953600000000000200000000000100000000000300000000000))
 (.node 1 (.leaf 600000000000400000000000117460611946200000000000600000000000400000000000400000000000300000000000200000000000600000000000800000000000700000000000900000000000300000000000200000000000600000000000400000000000600000000000200000000000200000000000600000000000600000000000700000000000300000000000600000000000400000000000600000000000100000000000219860000000819860000000600040000000400000000000600000000000800030000000600030000000400000000000300000000000200000000000600120000000400000000000300000000000619890621880600000000000207440100000107440000000600000000000500000000000500000000000500000000000500000000000500000000000500000000000500000000000500000000000500000000000500000000000500000000000500000000000500000000000500000000000800000000000800000000000200000000000100000000000)
 (.leaf 221610000000600000000000500000000000500000000000500000000000400000000000200000000000600000000000500000000000500000000000416290000000216290621958316300621974800000000000600000000000900000000000800000000000800000000000800000000000600000000000400000000000100000000000800000000000900000000000900000000000600000000000400000000000600000000000200000000000800000000000700000000000600000000000200000000000600020000000700000000000700000000000400000000000200000000000100000000000800000000000800000000000400000000000700000000000400000000000400000000000600000000000400000000000800000000000900000000000900000000000200000000000800000000000800000000000800000000000800000000000800000000000700000000000000000000000600000000000400000000000600000000000400000000000400000000000400000000000)))
 (.node 2 (.node 1 (.leaf 400000000000800000000000400000000000900000000000800000000000800000000000600000000000600000000000400000000000600000000000800000000000300000000000200000000000100000000000900000000000400000000000100000000000600000000000600000000000600000000000800000000000400000000000600000000000600000000000800000000000400000000000700000000000800000000000400000000000600000000000500000000000400000000000800000000000900000000000200000000000500000000000500000000000500000000000500000000000400000000000400000000000000000000000600000000000400000000000000000000000800000000000800000000000600000000000100000000000100000000000207640000000414200000000400000000000200000000000400000000000600000000000800000000000900000000000600000000000800000000000800000000000600000000000600000000000300000000000)
 (.leaf 100000000000200000000000200000000000300000000000300000000000300000000000600000000000200000000000100000000000600040000000200000000000100000000000400000000000300030000000400030000000400000000000600120000000800120000000800120000000800120000000400000000000300000000000619910621930400000000000200000000000607440000000500000000000500000000000400000000000200000000000800000000000400000000000515730000000500000000000514560000000514560000000500000000000500000000000500000000000500000000000800000000000400000000000700000000000600000000000500000000000521610000000500000000000500000000000500000000000500000000000400000000000200000000000100000000000100000000000600000000000500000000000700000000000400000000000800000000000600000000000400000000000916330611986600000000000400000000000))
 (.node 1 (.leaf 600000000000500000000000500000000000500000000000500000000000200000000000800000000000700000000000900000000000900000000000900000000000600000000000500000000000400000000000100000000000100000000000600000000000400000000000300000000000700000000000900000000000900000000000600000000000604270000000700000000000700000000000700000000000800000000000400000000000400000000000900000000000800000000000400000000000800000000000400000000000900000000000800000000000800000000000800000000000800000000000800000000000600000000000400000000000800000000000200000000000600000000000400000000000900000000000800000000000900000000000900000000000900000000000600000000000200000000000600000000000200000000000200000000000200000000000200000000000200000000000200000000000200000000000100000000000600000000000)
 (.leaf 600000000000400000000000200000000000200000000000800000000000700000000000600000000000200000000000100000000000600000000000400000000000600000000000000000000000300000000000200000000000400000000000300000000000200000000000600000000000400000000000900000000000400000000000800000000000600000000000400000000000200000000000400000000000606170000000900000000000600000000000100000000000800000000000800000000000700000000000600000000000400000000000600000000000400000000000100000000000600000000000400000000000200000000000200000000000500000000000500000000000500000000000500000000000500000000000400000000000100000000000100000000000500000000000500000000000500000000000500000000000800000000000115580621976318770000000400000000000011160100000008610100000200000000000800000000000400000000000))))))
 (.node 16 (.node 8 (.node 4 (.node 2 (.node 1 (.leaf 800000000000400000000000414200611911700000000000600000000000400000000000600000000000700000000000613690000000817480000000300000000000800000000000900000000000600000000000600000000000100000000000300000000000200000000000200000000000200000000000600040000000400000000000800000000000200000000000201160000000200090000000200090000000600090000000400090000000600000000000800000000000200000000000200000000000100000000000400000000000413180000000500000000000400000000000900000000000400000000000200000000000115730611988215730000000214560000000614560611945300000000000200000000000400000000000100000000000900000000000300000000000800000000000800000000000600000000000500000000000500000000000500000000000500000000000500000000000211790100000200000000000600000000000500000000000500000000000)
 (.leaf 500000000000500000000000516320621967300000000000200000000000800000000000600000000000700000000000600000000000200000000000415500621956900000000000200000000000900000000000600000000000200000000000600000000000500000000000400000000000116360621980100000000000400000000000600000000000600000000000600000000000500000000000400000000000600000000000300000000000300000000000200000000000200000000000800000000000900000000000800000000000800000000000800000000000800000000000200000000000100000000000800000000000800000000000800000000000900000000000800000000000400000000000600000000000900000000000800000000000800000000000800000000000800000000000400210000000200210000000200210000000200210000000400000000000800000000000600000000000400000000000600000000000400000000000400000000000600000000000))
 (.node 1 (.leaf 400000000000100000000000200000000000800000000000200000000000200000000000200000000000200000000000100000000000200000000000600000000000400000000000600000000000200000000000100000000000800000000000400000000000600000000000600000000000600000000000800000000000400000000000800000000000900000000000900000000000600000000000600000000000300000000000200000000000415110611964700000000000600000000000500000000000500000000000500000000000500000000000500000000000500000000000500000000000500000000000500000000000500000000000400000000000500000000000500000000000500000000000700000000000400000000000413950611910300000000000203490000000800000000000400000000000800000000000800000000000800000000000700000000000800000000000800000000000800000000000200000000000200000000000400000000000200000000000)
 (.leaf 100000000000300000000000600000000000600000000000800000000000600000000000600000000000600000000000200000000000200000000000100000000000300000000000300000000000600000000000400000000000600040000000400000000000700000000000600000000000600090000000800090000000800090000000400000000000115470621954800000000000200000000000413180621939800000000000600000000000500000000000600000000000400000000000400000000000900000000000800000000000200000000000200000000000200000000000216280621960100000000000600000000000500000000000600000000000500000000000500000000000500000000000200000000000400000000000600000000000500000000000500000000000500000000000300000000000400000000000200000000000615500000000400000000000600000000000500000000000500000000000500000000000500000000000500000000000400000000000)))
 (.node 2 (.node 1 (.leaf 300000000000200000000000216370621986300000000000900000000000900000000000800000000000700000000000600000000000400000000000200000000000200000000000600000000000400000000000800000000000800000000000800000000000600000000000400000000000200000000000200000000000800000000000200000000000900000000000900000000000900000000000400000000000100000000000800000000000800000000000800000000000700000000000600000000000600000000000400210000000600000000000400000000000800000000000300000000000300000000000200000000000200000000000200000000000200000000000200000000000200000000000600000000000800000000000800000000000800000000000800000000000800000000000400000000000800000000000800000000000800000000000600000000000400000000000200000000000600000000000600000000000000000000000900000000000800000000000)
 (.leaf 600000000000800000000000800000000000800000000000600000000000800000000000200000000000600000000000800000000000800000000000600000000000600000000000400000000000900000000000600000000000600000000000400000000000800000000000800000000000500000000000500000000000500000000000500000000000500000000000500000000000500000000000500000000000500000000000400000000000000000000000403490000000000000000000600000000000400000000000200000000000700000000000600000000000200000000000200000000000200220000000600000000000400000000000600000000000800000000000800000000000600000000000200000000000600000000000600000000000200000000000600000000000400000000000200000000000900040000000800040000000800040000000400000000000100000000000200000000000800090000000800090000000314380000000200000000000413940000000))
 (.node 1 (.leaf 700000000000300000000000800000000000600000000000200000000000200000000000200000000000200000000000500000000000500000000000500000000000500000000000416270621964116270000000200000000000223570622013400000000000400000000000600000000000300000000000200000000000500000000000500000000000500000000000500000000000200000000000300000000000200000000000900000000000600000000000500000000000400000000000619940622003400000000000300000000000800000000000800000000000616340621976200000000000600000000000500000000000500000000000500000000000500000000000500000000000500000000000400000000000600000000000300000000000200000000000300000000000600000000000600000000000800000000000800000000000600000000000800000000000800000000000400000000000800000000000600000000000400000000000900000000000800000000000)
 (.leaf 900000000000200000000000100000000000400000000000600000000000400000000000605150100000400000000000400000000000600000000000300000000000200000000000400000000000400000000000700000000000700000000000200000000000200000000000900000000000800000000000800000000000400000000000600000000000600000000000600000000000600000000000200000000000200000000000200000000000200000000000200000000000200000000000800000000000700000000000800000000000800000000000200000000000200000000000100000000000600000000000800000000000800000000000800000000000800000000000300000000000200000000000200000000000400000000000400000000000200000000000900000000000600000000000300000000000600000000000200000000000100000000000400000000000200000000000400000000000700000000000200000000000800000000000800000000000500000000000))))
 (.node 4 (.node 2 (.node 1 (.leaf 500000000000500000000000500000000000500000000000400000000000213960611962200000000000400000000000000000000000000000000000800000000000200000000000800000000000200000000000100000000000600000000000900000000000800000000000400000000000800000000000200000000000400000000000400000000000300000000000600000000000300000000000600000000000200000000000600000000000100000000000400000000000100000000000900090000000800090000000800090000000200000000000300000000000214380621933400000000000200000000000800000000000500000000000500000000000500000000000500000000000500000000000700000000000700000000000100000000000600000000000900000000000600000000000500000000000500000000000500000000000500000000000500000000000500000000000500000000000400000000000900000000000500000000000500000000000400000000000)
 (.leaf 722480721969622480000000200000000000200000000000100000000000400000000000500000000000500000000000500000000000500000000000500000000000500000000000400000000000800000000000500000000000500000000000500000000000500000000000500000000000423690000000400000000000600000000000400000000000600000000000500000000000400000000000600000000000600000000000800000000000400000000000200000000000800000000000200000000000200000000000100000000000300000000000300000000000300000000000900000000000902200000000400000000000100000000000200000000000200000000000100000000000100000000000100000000000600000000000200000000000600000000000400000000000200000000000200000000000200000000000400000000000400000000000200000000000200000000000200000000000600000000000900000000000800000000000800000000000600000000000))
 (.node 1 (.leaf 400000000000600000000000400000000000800000000000600000000000800000000000200000000000300000000000600000000000400000000000200000000000300000000000300000000000200000000000900000000000600000000000300000000000416170621995814300000000200000000000600000000000500000000000500000000000500000000000500000000000400000000000700000000000400000000000000000000000000000000000800000000000200000000000000000000000600000000000402300000000800220000000700000000000700000000000200000000000400000000000100000000000100000000000700000000000800000000000300000000000200000000000600000000000600000000000300000000000600000000000300000000000200000000000200000000000618990621972400000000000411060000000400000000000400000000000700000000000800000000000300000000000400000000000200000000000600000000000)
 (.leaf 400000000000900000000000300000000000900000000000600000000000300000000000600000000000600000000000500000000000500000000000500000000000400000000000100000000000800000000000700000000000400000000000800000000000800000000000200000000000421860000000400000000000700000000000600000000000800000000000500000000000400000000000500000000000500000000000500000000000500000000000400000000000800000000000600000000000500000000000500000000000500000000000422480000000022480000000000000000000200000000000600000000000500000000000500000000000500000000000500000000000500000000000500000000000504770100000504770000000800000000000800000000000900000000000800000000000700000000000900000000000600000000000600000000000800000000000800000000000500000000000500000000000400000000000400000000000800000000000)))
 (.node 2 (.node 1 (.leaf 611210000000600000000000601060000000200000000000200000000000300000000000600000000000500000000000500000000000600000000000400000000000600000000000200000000000100000000000200000000000700000000000700000000000800000000000800000000000800000000000400000000000400000000000400000000000200000000000400000000000800000000000609030100000200000000000300000000000600000000000600000000000200000000000200000000000100000000000100000000000200000000000200000000000100000000000200000000000300000000000200000000000800000000000800000000000600000000000600000000000400000000000600000000000400000000000600000000000300000000000600000000000100000000000200000000000600000000000500000000000800000000000300000000000300000000000200000000000204940000000400000000000616410611959500000000000500000000000)
 (.leaf 500000000000500000000000500000000000500000000000500000000000700000000000600000000000400000000000400000000000007130100000303090000000203090000000000000000000200000000000800000000000800000000000800000000000900000000000400000000000800000000000613790611972400000000000417470611949600000000000600000000000600000000000600000000000200000000000600000000000300000000000400000000000600000000000200000000000100000000000700000000000700000000000200000000000100000000000100000000000400000000000400000000000615460621973200000000000500000000000500000000000400000000000800000000000114590611961400000000000600000000000400000000000200000000000200000000000600000000000500000000000500000000000415550621999500000000000500000000000500000000000600000000000500000000000500000000000500000000000))
 (.node 1 (.leaf 500000000000500000000000500000000000400000000000624360622012500000000000500000000000500000000000500000000000500000000000500000000000500000000000404770000000604770000000400000000000100000000000600000000000600000000000423720000000414270621966400000000000700000000000600000000000800000000000600000000000400000000000401060000000600000000000200000000000500000000000400000000000800000000000800000000000600000000000200000000000900000000000800000000000400000000000400000000000800000000000800000000000700000000000400000000000400000000000400000000000100000000000100000000000800000000000400000000000800000000000400000000000700000000000200000000000300000000000300000000000200000000000600000000000400000000000600000000000600000000000300000000000600000000000400000000000600000000000)
 (.leaf 600000000000200000000000600000000000800000000000700000000000800000000000800000000000800000000000600000000000400000000000808970000000200000000000900000000000300000000000216400621960216400000000600000000000500000000000400000000000600000000000316430611901219990611980400000000000818620621938200000000000500000000000500000000000500000000000400000000000900000000000500000000000500000000000500000000000700000000000600000000000400000000000400000000000000000000000000000000000700000000000800000000000700000000000200000000000200000000000800000000000700000000000300000000000600000000000800000000000800000000000400000000000600000000000800000000000600000000000600000000000900000000000319260621969600000000000600000000000600000000000419270000000119270621970600000000000100000000000)))))
 (.node 8 (.node 4 (.node 2 (.node 1 (.leaf 200000000000200000000000200000000000100000000000200000000000300000000000200000000000600000000000700000000000200000000000200000000000600000000000100000000000300000000000500000000000500000000000400000000000200000000000200000000000214040611955500000000000500000000000500000000000500000000000500000000000400000000000300000000000500000000000500000000000500000000000600000000000500000000000500000000000500000000000400000000000200000000000624360000000500000000000500000000000500000000000400000000000600000000000400000000000900000000000400000000000400000000000400000000000400000000000900000000000600000000000400000000000600000000000200000000000300000000000300000000000600000000000500000000000400000000000100000000000100000000000400000000000400000000000400000000000400000000000)
 (.leaf 400000000000800000000000800000000000800000000000800000000000900000000000800000000000800000000000800000000000400000000000600000000000600000000000600000000000800000000000800000000000800000000000800000000000800000000000800000000000900000000000900000000000900000000000900000000000900000000000900000000000900000000000600000000000600000000000200000000000600000000000400000000000800000000000800000000000700000000000200000000000300000000000200000000000300000000000400000000000300000000000600000000000300000000000200000000000200000000000500000000000500000000000500000000000416090611986516090000000500000000000500000000000400000000000500000000000400000000000200000000000500000000000500000000000500000000000300000000000314220611957200000000000415420611970100000000000918751411913))
 (.node 1 (.leaf 618750000000000000000000800000000000800000000000800000000000200000000000800000000000600000000000600000000000800000000000200000000000400000000000800000000000700000000000200000000000600000000000800000000000800000000000300000000000600000000000600000000000300000000000300000000000900000000000600000000000600000000000600000000000600000000000400000000000200000000000300000000000118560621965200000000000600000000000200000000000400000000000900000000000600000000000300000000000100000000000500000000000500000000000500000000000500000000000100000000000300000000000400000000000200000000000500000000000500000000000500000000000500000000000500000000000600000000000500000000000500000000000600000000000500000000000500000000000520030621981920040000000800000000000500000000000500000000000)
 (.leaf 500000000000500000000000500000000000400000000000400000000000700000000000800000000000800000000000600000000000700000000000300000000000400000000000400000000000100000000000300000000000600000000000200000000000200000000000424480622003100000000000200440000000100000000000200000000000600000000000500000000000400000000000800000000000400000000000400000000000400000000000400000000000400000000000200000000000400000000000903540000000300000000000600000000000900000000000600000000000600000000000800000000000800000000000800000000000800000000000800000000000800000000000800000000000800000000000200000000000200000000000200000000000100000000000400000000000800000000000900000000000800000000000800000000000400000000000600000000000200000000000600000000000900000000000800000000000800000000000)))
 (.node 2 (.node 1 (.leaf 400000000000600000000000400000000000200000000000400000000000600000000000400000000000600000000000600000000000500000000000500000000000500000000000500000000000500000000000500000000000500000000000400000000000500000000000500000000000400000000000700000000000500000000000500000000000517510621982418750000000918750000000000000000000200000000000800000000000800000000000200000000000200000000000200000000000000000000000300000000000600000000000400000000000214710000000100000000000200000000000200000000000200000000000200000000000200000000000600000000000800000000000900000000000600000000000200000000000300000000000600000000000200000000000300000000000200000000000400000000000700000000000100000000000800000000000800000000000900000000000600000000000200000000000300000000000100000000000)
 (.leaf 500000000000500000000000500000000000400000000000420010000000420070000000400000000000700000000000900000000000200000000000200000000000200000000000800000000000500000000000500000000000500000000000500000000000500000000000500000000000500000000000500000000000500000000000500000000000500000000000500000000000500000000000500000000000420040000000618130621976500000000000500000000000500000000000500000000000500000000000500000000000400000000000100000000000600000000000400000000000400000000000600000000000415710000000600440000000400440000000600000000000600000000000600000000000400000000000900000000000800000000000800000000000700000000000800000000000400000000000400000000000700000000000200000000000400000000000100000000000400000000000400000000000100000000000803540000000703540000000))
 (.node 1 (.leaf 600000000000800000000000900000000000400000000000400000000000300000000000200000000000600000000000400000000000800000000000700000000000400000000000300000000000600000000000600000000000800000000000900000000000400000000000600000000000800000000000700000000000600000000000300000000000200000000000200000000000400000000000100000000000600000000000600000000000500000000000500000000000400000000000100000000000200000000000224420622003500000000000300000000000500000000000500000000000514220000000419380621963400000000000806580000000000000000000200000000000200000000000200000000000800000000000600000000000400000000000400000000000800000000000400000000000300000000000600000000000600000000000600000000000219280000000119280621971200000000000700000000000100000000000420150000000420090621965)
 (.leaf 200000000000217600621978200000000000900000000000600000000000500000000000500000000000500000000000500000000000500000000000500000000000400000000000718110611992223610622008200000000000416460611945600000000000500000000000500000000000500000000000500000000000500000000000500000000000500000000000500000000000500000000000500000000000500000000000500000000000500000000000500000000000518130000000500000000000500000000000500000000000500000000000500000000000500000000000500000000000500000000000400000000000800000000000700000000000400000000000422510000000022510000000800000000000800000000000800000000000400000000000000000000000200000000000623640622013800000000000804110000000620100621997200000000000212200611999400440000000400000000000200000000000600000000000100290000000800000000000))))
 (.node 4 (.node 2 (.node 1 (.leaf 700000000000500000000000400000000000400000000000800000000000800000000000400000000000118590621985800000000000700000000000600000000000200000000000215280000000000000000000700000000000800000000000200000000000800000000000800000000000800000000000800000000000800000000000800000000000600000000000800000000000400000000000400000000000602250000000200000000000200000000000300000000000800000000000800000000000600000000000600000000000400000000000600000000000400000000000600000000000600000000000400000000000200000000000600000000000500000000000500000000000500000000000500000000000800000000000200000000000214390621973500000000000500000000000500000000000400000000000800000000000500000000000500000000000500000000000800000000000415610621966906580000000306580000000200000000000000000000000)
 (.leaf 800000000000800000000000700000000000800000000000600000000000202050000000200000000000200000000000400000000000200000000000600000000000600000000000900000000000900000000000900000000000600000000000200000000000324220621966200000000000900000000000800000000000819040621961804700000000600000000000800000000000600000000000600000000000100000000000400000000000720150621974700000000000800000000000300000000000500000000000500000000000500000000000500000000000500000000000500000000000500000000000800000000000223600622003200000000000400000000000800000000000600000000000500000000000500000000000500000000000400000000000100000000000500000000000300000000000500000000000500000000000500000000000500000000000400000000000500000000000500000000000500000000000500000000000500000000000))
 (.node 1 (.leaf 500000000000500000000000500000000000400000000000009060100000802890000000201970100000301970000000600000000000400000000000200000000000400000000000600000000000405430000000600000000000400000000000600000000000400000000000200000000000423430000000223430000000600000000000500000000000400000000000800000000000800000000000700000000000800000000000400000000000200000000000100000000000200000000000400000000000400000000000600000000000900000000000400000000000600000000000400000000000800000000000700000000000800000000000800000000000800000000000400000000000700000000000400000000000600000000000200000000000900000000000900000000000800000000000800000000000800000000000800000000000700000000000400000000000600000000000800000000000600000000000100000000000200000000000400000000000900000000000)
 (.leaf 600000000000600000000000500000000000500000000000500000000000500000000000500000000000500000000000500000000000500000000000500000000000400000000000621920611967400000000000115740000000400000000000200000000000000000000000200000000000800000000000000000000000200000000000200000000000400000000000200000000000202050000000400000000000400000000000600000000000400000000000600000000000900000000000600000000000600000000000200000000000300000000000200000000000400000000000811460621969200000000000900000000000800000000000600000000000217570621942217580621941600000000000704830000000420180621969219030000000800000000000700000000000800000000000700000000000700000000000900000000000618360621964600000000000500000000000500000000000500000000000500000000000500000000000500000000000200000000000)))
 (.node 2 (.node 1 (.leaf 400000000000700000000000400000000000800000000000800000000000600000000000500000000000500000000000500000000000500000000000500000000000500000000000500000000000400000000000600000000000500000000000300000000000500000000000500000000000500000000000500000000000500000000000500000000000500000000000500000000000500000000000700000000000700000000000100000000000900000000000600000000000600000000000800000000000900000000000400000000000200000000000400000000000305430000000200000000000300000000000200000000000200000000000200000000000200000000000400000000000200000000000900000000000400000000000500000000000400000000000100000000000800000000000400000000000800000000000800000000000800000000000700000000000800000000000800000000000400000000000700000000000700000000000400000000000900000000000)
 (.leaf 600000000000600000000000900000000000900000000000900000000000900000000000700000000000700000000000700000000000400000000000800000000000603840000000400000000000600000000000200000000000200000000000200000000000200360000000300000000000324710000000300000000000800000000000600000000000800000000000700000000000200000000000300000000000900000000000200000000000600000000000400000000000200000000000300000000000600000000000900000000000500000000000200000000000800000000000500000000000500000000000500000000000500000000000400000000000400000000000500000000000500000000000500000000000500000000000500000000000500000000000616590621960800000000000500000000000500000000000500000000000421920000000800000000000400000000000300000000000200000000000000000000000200000000000700000000000400000000000))
 (.node 1 (.leaf 600000000000600000000000413830000000200000000000200000000000300000000000300000000000200000000000600000000000600000000000300000000000206670000000400000000000220260000000220220621944600000000000200000000000400000000000400000000000718600621964218600000000400000000000420300000000600000000000610740000000200000000000500000000000500000000000500000000000500000000000500000000000500000000000400000000000600000000000500000000000500000000000500000000000500000000000500000000000500000000000500000000000500000000000500000000000500000000000500000000000500000000000500000000000500000000000800000000000800000000000500000000000500000000000500000000000500000000000500000000000500000000000500000000000500000000000500000000000500000000000500000000000500000000000500000000000500000000000)
 (.leaf 500000000000500000000000500000000000500000000000500000000000200000000000300000000000200000000000400000000000623700622012200000000000500000000000500000000000100000000000200000000000600000000000300000000000400000000000618140000000200000000000200000000000400000000000200000000000800000000000600000000000700000000000800000000000500000000000400000000000800000000000600000000000400000000000600000000000200000000000900000000000800000000000800000000000800000000000400000000000800000000000400000000000400000000000600000000000400000000000800000000000700000000000800000000000900000000000800000000000800000000000800000000000800000000000800000000000803840000000700000000000800000000000400000000000600000000000800000000000400000000000400000000000000000000000600360000000400360000000)))))))))
 (.node 128 (.node 64 (.node 32 (.node 16 (.node 8 (.node 4 (.node 2 (.node 1 (.leaf 200000000000200000000000900000000000800000000000600000000000200000000000600000000000400000000000200000000000600000000000600000000000900000000000800000000000200000000000500000000000500000000000500000000000500000000000500000000000500000000000816570000000216570000000121890621977500000000000500000000000500000000000300000000000200000000000200000000000300000000000500000000000500000000000400000000000600000000000400000000000200000000000000000000000400000000000000000000000400000000000100000000000400000000000800000000000700000000000200000000000200000000000600000000000600000000000900000000000600000000000600000000000406670000000109490000000809490621963820260000000600000000000400000000000820230000000820270621943800000000000420280000000720300621950920300000000600000000000)
 (.leaf 200000000000600000000000213600621981306440000000500000000000500000000000500000000000500000000000500000000000923140000000623140612009400000000000900000000000623130000000900000000000600000000000900000000000900000000000600000000000500000000000500000000000500000000000500000000000500000000000500000000000500000000000500000000000500000000000500000000000500000000000500000000000500000000000300000000000200000000000200000000000200000000000200000000000400000000000100000000000300000000000300000000000400000000000900000000000616500000000600000000000200000000000300000000000300000000000400000000000800000000000800000000000500000000000800000000000400000000000600000000000400000000000600000000000600000000000800000000000800000000000800000000000800000000000800000000000800000000000))
 (.node 1 (.leaf 400000000000800000000000200000000000600000000000100000000000800000000000800000000000900000000000800000000000800000000000700000000000800000000000800000000000700000000000800000000000800000000000400000000000800000000000300000000000200000000000200000000000000000000000407800000000400000000000900000000000600000000000800000000000800000000000800000000000800000000000800000000000800000000000800000000000400000000000600000000000400000000000600000000000300000000000600000000000600000000000600000000000400000000000900000000000900000000000800000000000200000000000200000000000215780611960200000000000600000000000500000000000500000000000414780000000724410622006421890000000500000000000500000000000500000000000500000000000800000000000900000000000800000000000600000000000318831421995)
 (.leaf 500000000000400000000000400000000000000000000000000000000000400000000000000000000000802060000000400000000000600000000000100000000000100000000000200000000000800000000000800000000000700000000000200000000000200000000000200000000000300000000000600000000000600000000000600000000000200000000000200000000000200000000000608620621962200000000000400000000000620230000000400000000000720330621967400000000000700000000000600000000000619230000000600000000000300000000000508560100000500000000000500000000000500000000000500000000000400000000000400000000000700000000000600000000000400000000000600000000000200000000000200000000000100000000000600000000000600000000000800000000000300000000000600000000000500000000000500000000000500000000000500000000000500000000000500000000000500000000000)))
 (.node 2 (.node 1 (.leaf 500000000000500000000000500000000000500000000000600000000000300000000000408010000000700000000000200000000000600000000000200000000000216510611980200000000000100000000000800000000000600000000000400000000000200000000000800000000000800000000000800000000000800000000000400000000000800000000000800000000000600000000000600000000000400000000000800000000000800000000000800000000000900000000000800000000000800000000000900000000000900000000000400000000000800000000000200000000000800000000000200000000000100000000000100000000000200000000000200000000000400000000000700000000000600000000000700000000000600000000000400000000000800000000000000000000000600000000000000000000000000000000000100000000000200000000000600000000000200000000000800000000000400000000000022870100000613460100000)
 (.leaf 605480000000005510000000600000000000400000000000600000000000700000000000600000000000800000000000600000000000800000000000800000000000700000000000200000000000600000000000400000000000600000000000400000000000600000000000400000000000300000000000200000000000224060000000224060622004312280000000800000000000500000000000500000000000500000000000424410000000224410000000400000000000500000000000500000000000500000000000500000000000500000000000500000000000518740000000200000000000200000000000200000000000300000000000200000000000600000000000500000000000500000000000700000000000000000000000600000000000000000000000600000000000400000000000300000000000200000000000200000000000100000000000300000000000200000000000200000000000100000000000600000000000400000000000800000000000800000000000))
 (.node 1 (.leaf 600000000000200000000000408620000000800000000000200000000000424230621970200000000000418580621940820390000000600000000000300000000000300000000000600000000000508560000000500000000000417870611979800000000000500000000000500000000000500000000000500000000000400000000000400000000000600000000000600000000000600000000000200000000000100000000000200000000000200000000000100000000000200000000000600000000000800000000000600000000000500000000000500000000000500000000000500000000000500000000000500000000000500000000000500000000000500000000000500000000000500000000000500000000000500000000000500000000000500000000000800000000000800000000000900000000000800000000000600000000000200000000000800000000000600000000000200000000000100000000000100000000000600000000000800000000000300000000000)
 (.leaf 200000000000612440000000200000000000400000000000200000000000200000000000600000000000100000000000400000000000200000000000200000000000400000000000600000000000600000000000400000000000800000000000600000000000400000000000400000000000300000000000200000000000800000000000800000000000400000000000300000000000400000000000800000000000600000000000400000000000605360000000900000000000200000000000600000000000000000000000600000000000400000000000600000000000600000000000400000000000600000000000300000000000800000000000600000000000202500000000202230000000406090000000400000000000900000000000600000000000300000000000200000000000200000000000400000000000600000000000200000000000200000000000600000000000400000000000600000000000100000000000600000000000500000000000500000000000400000000000))))
 (.node 4 (.node 2 (.node 1 (.leaf 300000000000500000000000500000000000500000000000500000000000500000000000200000000000800000000000800000000000418740000000200000000000500000000000500000000000500000000000400000000000200000000000600000000000800000000000200000000000200000000000400000000000600000000000600000000000400000000000600000000000600000000000600000000000100000000000600000000000600000000000300000000000219300621977200000000000200000000000803310000000224660621982817680621949900000000000606470621953300000000000200000000000417690621943120380621940800000000000218790000000800000000000115560621974800000000000100000000000322680000000220390621973300000000000300000000000300000000000200000000000200000000000500000000000500000000000500000000000400000000000800000000000800000000000400000000000900000000000)
 (.leaf 800000000000800000000000200000000000200000000000100000000000600000000000400000000000600000000000400000000000900000000000300000000000600000000000500000000000500000000000500000000000500000000000500000000000500000000000500000000000500000000000500000000000400000000000700000000000300000000000200000000000600000000000200000000000600000000000300000000000700000000000100000000000100000000000800000000000600000000000300000000000300000000000400000000000200000000000200000000000600000000000400000000000400000000000700000000000800000000000800000000000800000000000400000000000400000000000900000000000600000000000400000000000400000000000600000000000600000000000000000000000405360000000605360000000900000000000810710000000000000000000900000000000800000000000800000000000600000000000))
 (.node 1 (.leaf 600000000000600000000000403430000000600000000000200000000000600000000000200000000000900000000000600000000000200000000000800000000000600000000000400000000000600000000000600000000000300000000000600000000000300000000000600000000000200000000000500000000000500000000000500000000000500000000000500000000000500000000000500000000000500000000000500000000000400000000000600000000000500000000000400000000000500000000000500000000000500000000000500000000000500000000000500000000000500000000000500000000000400000000000800000000000100000000000600000000000600000000000400000000000200000000000200000000000200000000000200000000000800000000000800000000000800000000000400000000000600000000000900000000000100000000000300000000000600000000000200000000000600000000000300000000000200000000000)
 (.leaf 600000000000200000000000614250621967320400621950200000000000420410621952300000000000200000000000700000000000209770621961209770000000107720621958622680000000200000000000300000000000100000000000500000000000500000000000500000000000415030621973600000000000400000000000900000000000600000000000900000000000800000000000600000000000600000000000200000000000600000000000500000000000900000000000800000000000600000000000900000000000600000000000209650000000400000000000800000000000600000000000400000000000800000000000400000000000600000000000600000000000800000000000700000000000400000000000800000000000800000000000400000000000300000000000200000000000400000000000400000000000600000000000600000000000400000000000400000000000900000000000800000000000400000000000011980100000200000000000)))
 (.node 2 (.node 1 (.leaf 13430100000604460000000021680100000600000000000000000000000000000000000000000000000000000000000000000000000600000000000000000000000200000000000805410000000805410000000700000000000800000000000600000000000400000000000800000000000400000000000900000000000900000000000800000000000200000000000300000000000800000000000800000000000800000000000600000000000300000000000300000000000200000000000300000000000200000000000600000000000816630621965600000000000300000000000300000000000300000000000300000000000300000000000500000000000500000000000500000000000500000000000500000000000500000000000500000000000500000000000500000000000500000000000500000000000500000000000500000000000500000000000400000000000500000000000500000000000500000000000500000000000500000000000417610622000301510000000)
 (.leaf 201510000000000000000000400000000000300000000000400000000000200000000000200000000000300000000000400000000000600000000000600000000000900000000000600000000000619310621966200000000000200000000000400000000000300000000000100000000000400000000000100000000000200000000000220470000000600000000000600000000000604220000000500000000000500000000000500000000000500000000000500000000000800000000000400000000000400000000000600000000000800000000000800000000000800000000000300000000000200000000000600000000000800000000000600000000000400000000000500000000000500000000000500000000000100000000000600000000000200000000000100000000000600000000000900000000000600610000000200000000000100000000000100000000000200000000000100000000000200000000000100000000000600000000000400000000000800000000000))
 (.node 1 (.leaf 800000000000400000000000800000000000600000000000700000000000300000000000800000000000400000000000600000000000600000000000400000000000400000000000400000000000100000000000600000000000000000000000200000000000800000000000100000000000600000000000600000000000400000000000100000000000100000000000800000000000700000000000200000000000600000000000805220000000413430000000904460000000804460000000721680000000200000000000000000000000600000000000400000000000400000000000200000000000000000000000100000000000000000000000300000000000022450000000400000000000600000000000900000000000400000000000200000000000600000000000200000000000200000000000100000000000600000000000600000000000400000000000200000000000200000000000200000000000300000000000300000000000600000000000300000000000200000000000)
 (.leaf 300000000000615770611960300000000000500000000000500000000000500000000000500000000000500000000000500000000000500000000000500000000000500000000000500000000000500000000000500000000000500000000000500000000000500000000000500000000000500000000000500000000000500000000000500000000000500000000000500000000000400000000000601510000000400000000000400000000000200000000000200000000000600000000000200000000000600000000000200000000000600000000000600000000000620440621931320450621954220450000000120460621953617650621991200000000000100000000000100000000000300000000000200000000000100000000000300000000000600000000000300000000000600000000000300000000000500000000000500000000000800000000000800000000000800000000000400000000000700000000000800000000000600000000000400000000000900000000000)))))
 (.node 8 (.node 4 (.node 2 (.node 1 (.leaf 800000000000800000000000800000000000800000000000800000000000200000000000100000000000200000000000300000000000200000000000600000000000200000000000300000000000600000000000400000000000900000000000600000000000200000000000200000000000800000000000400000000000800000000000900000000000800000000000800000000000600000000000400000000000123420000000400000000000400000000000200000000000800000000000600000000000200000000000800000000000800000000000300000000000200000000000700000000000200000000000900000000000400000000000600000000000200000000000100000000000400000000000300000000000900000000000400000000000200000000000100000000000100000000000200000000000200000000000200000000000600000000000600000000000400000000000200000000000200000000000000000000000700000000000400000000000700000000000)
 (.leaf 400000000000200000000000200000000000600000000000400000000000800000000000700000000000600000000000400000000000400000000000200000000000900000000000800000000000800000000000600000000000300000000000600000000000200000000000300000000000800000000000600000000000800000000000600000000000800000000000700000000000600000000000600000000000200000000000200000000000300000000000214670621959600000000000600000000000500000000000500000000000500000000000500000000000400000000000600000000000500000000000500000000000500000000000500000000000500000000000500000000000500000000000500000000000500000000000400000000000900000000000400000000000400000000000700000000000800000000000400000000000300000000000200000000000400000000000600000000000600000000000600000000000900000000000600000000000619980621951))
 (.node 1 (.leaf 220510000000620510621960619350621958600000000000400000000000300000000000200000000000400000000000300000000000500000000000500000000000500000000000800000000000400000000000200000000000423780622001600000000000800000000000200000000000400000000000200000000000200000000000200000000000100000000000400000000000300000000000600000000000400000000000600000000000500000000000500000000000500000000000500000000000500000000000500000000000500000000000400000000000400000000000800000000000400000000000800000000000600000000000200000000000200000000000618490000000300000000000600000000000400000000000600000000000400000000000300000000000400000000000200000000000300000000000600000000000700000000000700000000000400000000000700000000000009720000000800000000000800000000000600000000000400000000000)
 (.leaf 400000000000000000000000600000000000000000000000000000000000000000000000200000000000200000000000222450000000308870000000200000000000400000000000900000000000200000000000800000000000400000000000200000000000300000000000200000000000400000000000200000000000200000000000300000000000600000000000400000000000900000000000200000000000900000000000400000000000620540621958600000000000600000000000500000000000500000000000500000000000400000000000600000000000500000000000500000000000500000000000500000000000400000000000001520000000210990000000200000000000700000000000400000000000200000000000800000000000000000000000600000000000100000000000800000000000600000000000600000000000400000000000200000000000600000000000200000000000800000000000814340621962314520621963214520000000)))
 (.node 2 (.node 1 (.leaf 212600000000620550621966613040621971300000000000410820000000600000000000400000000000400000000000400000000000600000000000500000000000500000000000800000000000700000000000818150000000400000000000600000000000200000000000400000000000400000000000300000000000300000000000600000000000600000000000800000000000400000000000900000000000800000000000800000000000800000000000800000000000800000000000600000000000500000000000500000000000500000000000400000000000300000000000200000000000200000000000600000000000500000000000500000000000500000000000500000000000400000000000400000000000200000000000400000000000700000000000600000000000600000000000800000000000200000000000600000000000600000000000100000000000300000000000200000000000900000000000900000000000400000000000800000000000700000000000)
 (.leaf 200000000000400000000000300000000000100000000000200000000000400000000000400000000000200000000000200000000000200000000000100000000000100000000000216620000000104680000000700000000000200000000000700000000000300000000000200000000000200000000000800000000000800000000000700000000000800000000000600000000000400000000000600000000000000000000000200000000000600000000000308040000000208040000000300000000000200000000000800000000000600000000000400000000000600000000000300000000000800000000000800000000000600000000000200000000000600000000000200000000000200000000000400000000000900000000000800000000000624560000000600000000000600000000000400000000000900000000000600000000000600000000000500000000000400000000000600000000000400000000000600000000000500000000000400000000000800000000000))
 (.node 1 (.leaf 200000000000800000000000800000000000600000000000200000000000600000000000600000000000000000000000600000000000300000000000617660621933600000000000300000000000600000000000100000000000300000000000200000000000200000000000200000000000100000000000100000000000400000000000300000000000200000000000500000000000800000000000700000000000200000000000100000000000600000000000200000000000200000000000300000000000600000000000800000000000400000000000200000000000100000000000600000000000300000000000200000000000400000000000300000000000200000000000200000000000200000000000200000000000500000000000500000000000500000000000500000000000500000000000601810000000600000000000400000000000600000000000600000000000200000000000600000000000600000000000700000000000800000000000400000000000900000000000)
 (.leaf 400000000000600000000000200000000000400000000000700000000000600000000000400000000000600000000000600000000000100000000000100000000000400000000000600000000000600000000000100000000000100000000000400000000000400000000000800000000000800000000000400000000000700000000000600000000000000000000000323100000000010270100000200000000000200000000000400000000000700000000000200000000000600000000000400000000000300000000000200000000000200000000000400000000000700000000000200000000000824560000000900000000000300000000000600000000000800000000000600000000000200000000000800000000000815750621976800000000000822830000000800000000000500000000000500000000000500000000000500000000000500000000000500000000000400000000000500000000000500000000000500000000000400000000000100000000000200000000000))))
 (.node 4 (.node 2 (.node 1 (.leaf 100000000000700000000000800000000000600000000000600000000000800000000000600000000000600000000000620620621968620580000000213800611978600000000000100000000000200000000000200000000000300000000000200000000000200000000000200000000000300000000000600000000000400000000000800000000000800000000000800000000000200000000000200000000000400000000000600000000000100000000000300000000000400000000000300000000000200000000000200000000000600000000000800000000000400000000000400000000000400000000000600000000000600000000000500000000000300000000000600000000000200000000000200000000000100000000000700000000000800000000000500000000000500000000000500000000000400000000000400000000000900000000000400000000000200000000000200000000000900000000000900000000000600000000000300000000000222320000000)
 (.leaf 200000000000400000000000400000000000800000000000600000000000400000000000600000000000400000000000600000000000200000000000400000000000300000000000600000000000200000000000400000000000600000000000600000000000200000000000100000000000200000000000100000000000600000000000400000000000800000000000902620000000007300100000622310000000411330100000201390000000421950000000800000000000800000000000800000000000600000000000800000000000600000000000400000000000300000000000400000000000200000000000400000000000200000000000616080611982200000000000600000000000620650000000200000000000215880621970600000000000216640611960100000000000814100621956814830000000915790621970801710000000922830000000600540000000500000000000500000000000500000000000400000000000600000000000200000000000200000000000))
 (.node 1 (.leaf 200000000000900000000000400000000000900000000000400000000000200000000000400000000000600000000000900000000000600000000000200000000000200000000000900000000000620640621979600000000000200000000000200000000000900000000000200000000000200000000000400000000000100000000000200000000000200000000000600000000000500000000000200000000000400000000000600000000000400000000000600000000000400000000000200000000000900000000000300000000000700000000000400000000000100000000000400000000000800000000000500000000000500000000000500000000000500000000000300000000000100000000000100000000000100000000000600000000000600000000000800000000000800000000000500000000000800000000000800000000000500000000000800000000000800000000000800000000000600000000000400000000000900000000000600000000000400000000000)
 (.leaf 300000000000600000000000900000000000417890611999400000000000200000000000300000000000800000000000400000000000900000000000600000000000400000000000600000000000800000000000400000000000400000000000700000000000700000000000400000000000600000000000800000000000400000000000100000000000300000000000120680000000200000000000200000000000100000000000800000000000800000000000400000000000200000000000200000000000009840100000700000000000409580100000400000000000802830000000700000000000612810100000200730000000200000000000400000000000600000000000200000000000800000000000600000000000300000000000400000000000800000000000600000000000200000000000624150000000200000000000800000000000200000000000220650000000224100000000611100000000600000000000215050000000115050621960320670611976700000000000)))
 (.node 2 (.node 1 (.leaf 900000000000600540000000500000000000500000000000500000000000500000000000500000000000500000000000500000000000500000000000500000000000400000000000500000000000500000000000500000000000800000000000200000000000600000000000700000000000000000000000700000000000100000000000200000000000600000000000900000000000800000000000300000000000600000000000619320611967613640611973400000000000305720000000500000000000500000000000500000000000500000000000200000000000900000000000400000000000800000000000300000000000200000000000200000000000600000000000200000000000300000000000300000000000300000000000300000000000200000000000600000000000400000000000600000000000800000000000800000000000400000000000600000000000900000000000800000000000800000000000600000000000500000000000600000000000400000000000)
 (.leaf 800000000000800000000000506070100000506070000000800000000000600000000000400000000000600000000000400000000000300000000000900000000000900000000000900000000000900000000000800000000000500000000000400000000000200000000000800000000000400000000000800000000000700000000000600000000000400000000000600000000000400000000000200000000000600000000000600000000000400000000000800000000000600000000000100000000000400000000000100000000000100000000000100000000000100000000000400000000000200000000000200000000000600000000000600000000000300000000000800000000000009750100000800000000000700000000000006780100000400000000000400000000000800000000000200000000000600000000000600000000000300000000000300000000000600000000000400000000000600000000000700000000000200000000000300000000000))
 (.node 1 (.leaf 300000000000600000000000600000000000600000000000600000000000215760621957600000000000611100000000400000000000800000000000914750000000814750621971823650622001300000000000600000000000500000000000500000000000500000000000500000000000500000000000500000000000500000000000400000000000100000000000500000000000500000000000500000000000400000000000100000000000200000000000700000000000800000000000800000000000300000000000300000000000200000000000405870000000300000000000300000000000300000000000500000000000522940000000505720000000500000000000500000000000400000000000500000000000500000000000400000000000200000000000200000000000200000000000600000000000200000000000600000000000400000000000400000000000600000000000800000000000700000000000400000000000400000000000600000000000800000000000)
 (.leaf 800000000000200000000000900000000000600000000000400000000000800000000000800000000000300000000000600000000000400000000000800000000000600000000000800000000000700000000000700000000000400000000000300000000000206000000000600000000000500000000000800000000000700000000000800000000000400000000000800000000000700000000000900000000000800000000000600000000000900000000000900000000000900000000000900000000000600000000000800000000000600000000000500000000000200000000000400000000000300000000000800000000000700000000000200000000000200000000000800000000000700000000000700000000000200000000000900000000000800000000000400000000000700000000000400000000000800000000000800000000000200000000000200000000000800000000000300000000000100000000000600000000000100000000000200000000000300000000000))))))
 (.node 16 (.node 8 (.node 4 (.node 2 (.node 1 (.leaf 215410611974200000000000300000000000100000000000600000000000400000000000012240100000600000000000200000000000200000000000200000000000200000000000400000000000600000000000600000000000600000000000200000000000100000000000624110622007600000000000100000000000200000000000400000000000100000000000200000000000616070621988810090000000621990621966222620000000400000000000600000000000800000000000600000000000500000000000500000000000500000000000200000000000500000000000500000000000500000000000018640611968400000000000000000000000800000000000900000000000605870000000200000000000600000000000200000000000500000000000500000000000500000000000500000000000500000000000400000000000500000000000509020100000500000000000400000000000200000000000700000000000200000000000200000000000200000000000)
 (.leaf 200000000000600000000000200000000000400000000000600000000000900000000000700000000000700000000000400000000000700000000000700000000000700000000000600000000000600000000000800000000000700000000000800000000000400000000000800000000000600000000000400000000000800000000000200000000000400000000000400000000000800000000000300000000000600000000000400000000000600000000000800000000000800000000000600000000000900000000000800000000000800000000000800000000000600000000000900000000000500000000000500000000000400000000000300000000000400000000000400000000000200000000000200000000000900000000000300000000000700000000000800000000000800000000000200000000000200000000000600000000000800000000000100000000000800000000000600000000000400000000000200000000000200000000000400000000000200000000000))
 (.node 1 (.leaf 200000000000400000000000700000000000100000000000200000000000400000000000700000000000200000000000200000000000600000000000600000000000600000000000800000000000800000000000200000000000315340611968600000000000416650621982600000000000100000000000300000000000803510000000400000000000800000000000600000000000500000000000500000000000500000000000400000000000500000000000500000000000500000000000200000000000700000000000100000000000800000000000800000000000800000000000018650611910600000000000400000000000800000000000800000000000300000000000200000000000600000000000500000000000400000000000811040100000700000000000502170000000500000000000500000000000500000000000500000000000400000000000700000000000400000000000200000000000700000000000600000000000600000000000200000000000600000000000)
 (.leaf 400000000000600000000000800000000000800000000000800000000000200000000000800000000000400000000000700000000000600000000000300000000000200000000000200000000000100000000000900000000000800000000000800000000000800000000000800000000000800000000000600000000000800000000000800000000000700000000000900000000000800000000000800000000000800000000000800000000000400000000000600000000000820710611901400000000000800000000000500000000000400000000000300000000000200000000000600000000000400000000000800000000000600000000000900000000000600000000000600000000000600000000000800000000000600000000000500000000000500000000000700000000000200000000000200000000000400000000000300000000000800000000000700000000000200000000000200000000000600000000000800000000000100000000000600000000000300000000000)))
 (.node 2 (.node 1 (.leaf 400000000000800000000000200000000000200000000000200000000000600000000000400000000000200000000000400000000000300000000000400000000000200000000000200000000000205120000000005120000000600000000000200000000000400000000000800000000000620720000000420720000000800000000000800000000000300000000000200000000000200000000000300000000000400000000000300000000000200000000000200000000000216020612000800000000000600000000000800000000000700000000000600000000000600000000000400000000000916040621995800000000000600000000000400000000000100000000000800000000000800000000000600000000000500000000000500000000000500000000000500000000000500000000000400000000000200000000000500000000000500000000000300000000000400000000000200000000000100000000000800000000000700000000000618650000000600000000000)
 (.leaf 300000000000200000000000700000000000600000000000600000000000600000000000500000000000500000000000400000000000200000000000500000000000500000000000500000000000500000000000500000000000500000000000500000000000500000000000400000000000300000000000200000000000100000000000600000000000400000000000600000000000600000000000400000000000900000000000900000000000800000000000800000000000800000000000600000000000800000000000400000000000200000000000200000000000200000000000200000000000600000000000400000000000600000000000600000000000600000000000800000000000800000000000800000000000800000000000600000000000800000000000200000000000100000000000200000000000100000000000900000000000800000000000400000000000600000000000400000000000600000000000500000000000500000000000900000000000))
 (.node 1 (.leaf 800000000000800000000000600000000000400000000000600000000000600000000000200000000000200000000000800000000000600000000000800000000000300000000000600000000000400000000000600000000000400000000000200000000000200000000000100000000000800000000000800000000000000000000000900000000000900000000000600000000000400000000000400000000000800000000000400000000000400000000000600000000000200000000000200000000000400000000000200000000000600000000000200000000000100000000000600000000000400000000000000000000000800000000000020720000000620720000000200000000000600000000000100000000000200000000000200000000000800000000000800000000000400000000000900000000000900000000000900000000000900000000000600000000000213760000000900000000000400000000000600000000000400000000000820740000000500000000000)
 (.leaf 500000000000500000000000500000000000500000000000500000000000500000000000500000000000200000000000400000000000300000000000600000000000300000000000800000000000600000000000600000000000200000000000900000000000600000000000300000000000400000000000200000000000802170000000509360100000500000000000500000000000500000000000500000000000500000000000500000000000800000000000800000000000400000000000600000000000400000000000400000000000400000000000600000000000400000000000200000000000200000000000100000000000200000000000100000000000600000000000900000000000400000000000700000000000600000000000400000000000800000000000600000000000600000000000800000000000900000000000800000000000800000000000400000000000200000000000800000000000600000000000400000000000200000000000600000000000500000000000))))
 (.node 4 (.node 2 (.node 1 (.leaf 400000000000200000000000800000000000400000000000800000000000800000000000700000000000600000000000900000000000900000000000600000000000600000000000500000000000500000000000400000000000600000000000200000000000200000000000600000000000100000000000100000000000200000000000200000000000600000000000600000000000800000000000800000000000800000000000100000000000100000000000300000000000600000000000200000000000400000000000400000000000400000000000400000000000700000000000800000000000800000000000900000000000600000000000200000000000100000000000200000000000200000000000200000000000200000000000600000000000200000000000200000000000300000000000200000000000400000000000200000000000100000000000600000000000200000000000200000000000600000000000800000000000924640000000700000000000600000000000)
 (.leaf 700000000000200000000000600000000000615230621960400000000000615840611960800000000000200000000000600000000000100000000000820740621985924610622008624080622001500000000000500000000000500000000000700000000000400000000000500000000000500000000000500000000000200000000000400000000000800000000000200000000000400000000000600000000000300000000000600000000000500000000000200000000000509360000000400000000000400000000000600000000000200000000000400000000000800000000000600000000000400000000000600000000000200000000000200000000000200000000000400000000000900000000000800000000000400000000000800000000000600000000000900000000000900000000000600000000000400000000000100000000000600000000000800000000000400000000000800000000000800000000000400000000000400000000000600000000000900000000000))
 (.node 1 (.leaf 800000000000400000000000100000000000500000000000400000000000200000000000200000000000800000000000400000000000600000000000800000000000700000000000600000000000600000000000600000000000800000000000900000000000900000000000600000000000500000000000500000000000600000000000600000000000400000000000600000000000600000000000700000000000200000000000200000000000100000000000400000000000900000000000800000000000800000000000400000000000400000000000400000000000600000000000300000000000300000000000300000000000200000000000200000000000600000000000200000000000600000000000200000000000200000000000400000000000100000000000800000000000800000000000600000000000224510000000600000000000400000000000800000000000800000000000700000000000200000000000600000000000400000000000800000000000815310621969)
 (.leaf 400000000000600000000000500000000000500000000000500000000000500000000000400000000000100000000000500000000000500000000000600000000000000000000000800000000000200000000000900000000000800000000000800000000000900000000000600000000000200000000000600000000000500000000000500000000000500000000000500000000000500000000000500000000000400000000000600000000000400000000000200000000000800000000000700000000000800000000000600000000000600000000000300000000000400000000000100000000000800000000000400000000000400000000000400000000000600000000000600000000000200000000000600000000000400000000000600000000000800000000000600000000000400000000000400000000000300000000000200000000000900000000000100000000000400000000000500000000000500000000000400000000000100000000000800000000000700000000000)))
 (.node 2 (.node 1 (.leaf 600000000000600000000000600000000000800000000000600000000000500000000000500000000000500000000000500000000000500000000000500000000000500000000000400000000000200000000000800000000000800000000000700000000000800000000000200000000000200000000000600000000000400000000000600000000000600000000000200000000000400000000000800000000000800000000000400000000000200000000000100000000000800000000000600000000000200000000000300000000000600000000000200000000000200000000000200000000000200000000000200000000000200000000000200000000000700000000000200000000000400000000000400000000000616050000000400000000000300000000000600000000000600000000000800000000000400000000000100000000000615960000000215900621959600000000000500000000000500000000000400000000000500000000000507550100000200000000000)
 (.leaf 200000000000800000000000800000000000800000000000800000000000200000000000200000000000000000000000300000000000600000000000600000000000500000000000500000000000500000000000200000000000300000000000517710621952500000000000800000000000700000000000900000000000800000000000800000000000200000000000200000000000200000000000200000000000400000000000200000000000200000000000300000000000200000000000200000000000600000000000600000000000400000000000400000000000400000000000800000000000600000000000800000000000600000000000600000000000400000000000600000000000800000000000800000000000800000000000800000000000600000000000800000000000800000000000700000000000800000000000300000000000800000000000800000000000400000000000600000000000500000000000400000000000200000000000200000000000100000000000))
 (.node 1 (.leaf 600000000000200000000000200000000000200000000000600000000000400000000000800000000000600000000000600000000000500000000000500000000000500000000000500000000000300000000000200000000000200000000000100000000000200000000000100000000000400000000000000000000000600000000000400000000000300000000000300000000000200000000000200000000000400000000000600000000000600000000000200000000000300000000000400000000000800000000000600000000000400000000000200000000000600000000000820780621958200000000000200000000000800000000000300000000000924590000000600000000000816010622006900000000000800000000000824160622008600000000000215870000000400000000000617900000000500000000000500000000000400000000000500000000000500000000000421750000000120770000000400000000000800000000000800000000000800000000000)
 (.leaf 600000000000600000000000500000000000600000000000500000000000500000000000400000000000200000000000200000000000400000000000200000000000200000000000300000000000200000000000600000000000400000000000700000000000800000000000900000000000800000000000800000000000600000000000800000000000600000000000900000000000200000000000300000000000600000000000800000000000800000000000800000000000400000000000400000000000800000000000800000000000400000000000800000000000600000000000100000000000300000000000900000000000800000000000400000000000600000000000400000000000600000000000700000000000900000000000600000000000600000000000500000000000500000000000500000000000500000000000500000000000500000000000200000000000200000000000400000000000200000000000600000000000200000000000400000000000600000000000)))))
 (.node 8 (.node 4 (.node 2 (.node 1 (.leaf 400000000000600000000000600000000000900000000000200000000000200000000000400000000000800000000000700000000000800000000000800000000000400000000000800000000000800000000000300000000000100000000000200000000000600000000000405730100000800000000000600000000000800000000000800000000000200000000000600000000000600000000000600000000000400000000000215910611960416030000000615820621957200000000000818530000000818530000000123870000000623870622007500000000000500000000000500000000000400000000000500000000000500000000000200000000000400000000000600000000000800000000000800000000000200000000000600000000000600000000000600000000000518380000000500000000000500000000000500000000000500000000000500000000000500000000000500000000000500000000000800000000000300000000000300000000000400000000000)
 (.leaf 200000000000300000000000300000000000200000000000100000000000600000000000800000000000800000000000700000000000200000000000400000000000400000000000200000000000800000000000900000000000800000000000800000000000900000000000700000000000900000000000600000000000800000000000600000000000900000000000800000000000900000000000400000000000700000000000600000000000800000000000600000000000400000000000600000000000900000000000800000000000900000000000400000000000600000000000400000000000800000000000400000000000300000000000200000000000600000000000600000000000700000000000600000000000800000000000600000000000800000000000800000000000800000000000500000000000500000000000600000000000500000000000500000000000500000000000500000000000500000000000500000000000500000000000500000000000500000000000))
 (.node 1 (.leaf 800000000000400000000000200000000000200000000000400000000000700000000000600000000000800000000000800000000000600000000000900000000000800000000000300000000000300000000000200000000000200000000000200000000000200000000000800000000000200000000000100000000000100000000000600000000000611470100000400000000000300000000000616120000000600000000000900000000000100000000000200000000000200000000000200000000000600000000000200000000000800000000000600000000000800000000000600000000000200000000000100000000000900000000000800000000000200000000000600000000000500000000000500000000000500000000000500000000000500000000000400000000000500000000000500000000000500000000000400000000000000000000000400000000000600000000000400000000000600000000000500000000000500000000000513190100000500000000000)
 (.leaf 500000000000500000000000400000000000600000000000200000000000200000000000200000000000600000000000200000000000100000000000100000000000900000000000700000000000400000000000800000000000800000000000700000000000700000000000800000000000700000000000800000000000200000000000200000000000200000000000600000000000700000000000600000000000800000000000400000000000600000000000800000000000600000000000400000000000800000000000600000000000600000000000800000000000800000000000700000000000600000000000400000000000600000000000400000000000600000000000500000000000500000000000200000000000100000000000400000000000200000000000100000000000600000000000800000000000800000000000600000000000600000000000600000000000200000000000300000000000600000000000600000000000600000000000500000000000500000000000)))
 (.node 2 (.node 1 (.leaf 400000000000800000000000500000000000500000000000210800000000200000000000200000000000400000000000100000000000200000000000600000000000622280000000400000000000800000000000800000000000600000000000400000000000800000000000800000000000800000000000800000000000800000000000200000000000300000000000200000000000400000000000200000000000200000000000400000000000323550000000200000000000406620100000200000000000623970000000600000000000315940611966200000000000600000000000615920621973600000000000213710000000100000000000600000000000500000000000500000000000500000000000500000000000800000000000500000000000500000000000500000000000500000000000500000000000500000000000500000000000500000000000504040000000200000000000400000000000800000000000600000000000600000000000800000000000200000000000)
 (.leaf 600000000000518380000000500000000000500000000000500000000000500000000000400000000000600000000000600000000000100000000000100000000000200000000000600000000000400000000000400000000000700000000000800000000000400000000000200000000000100000000000100000000000400000000000100000000000900000000000800000000000600000000000200000000000800000000000900000000000600000000000600000000000800000000000800000000000400000000000800000000000800000000000800000000000900000000000600000000000200000000000600000000000400000000000600000000000400000000000500000000000500000000000500000000000400000000000800000000000400000000000600000000000800000000000900000000000600000000000600000000000500000000000400000000000100000000000600000000000500000000000200000000000400000000000100000000000616670611730))
 (.node 1 (.leaf 100000000000922280000000600000000000900000000000800000000000400000000000920820000000800000000000616760611953300000000000316770611955300000000000200000000000400000000000800000000000400000000000400000000000400000000000423550000000200000000000606620000000224430000000215220621966320840000000324580000000200000000000900000000000400000000000200000000000400000000000304620621960204620000000200000000000500000000000500000000000400000000000500000000000500000000000500000000000500000000000500000000000500000000000500000000000500000000000500000000000500000000000400000000000200000000000600000000000400000000000800000000000800000000000800000000000600000000000400000000000200000000000905750000000500000000000500000000000500000000000500000000000700000000000800000000000400000000000)
 (.leaf 200000000000600000000000100000000000300000000000200000000000200000000000200000000000400000000000800000000000700000000000400000000000400000000000700000000000300000000000200000000000600000000000200000000000800000000000800000000000900000000000600000000000900000000000900000000000600000000000600000000000900000000000800000000000600000000000400000000000100000000000800000000000800000000000700000000000600000000000800000000000900000000000600000000000800000000000400000000000619370000000419370000000300000000000600000000000400000000000200000000000800000000000800000000000700000000000800000000000700000000000800000000000800000000000100000000000300000000000200000000000200000000000600000000000600000000000600000000000600000000000600000000000800000000000800000000000400000000000))))
 (.node 4 (.node 2 (.node 1 (.leaf 100000000000000000000000500000000000411220000000800000000000808570000000800000000000800000000000200000000000400000000000100000000000800000000000800000000000600000000000800000000000600000000000800000000000800000000000400000000000700000000000600000000000200000000000400000000000800000000000200000000000400000000000400000000000200000000000600000000000300000000000900000000000300000000000900000000000600000000000600000000000200000000000200000000000200000000000100000000000104620000000600000000000300000000000500000000000500000000000400000000000600000000000500000000000500000000000500000000000500000000000200000000000100000000000800000000000000000000000400000000000200000000000300000000000600000000000500000000000500000000000500000000000500000000000500000000000400000000000)
 (.leaf 400000000000800000000000400000000000800000000000800000000000400000000000600000000000300000000000400000000000400000000000700000000000400000000000800000000000400000000000100000000000100000000000100000000000100000000000200000000000300000000000200000000000400000000000900000000000300000000000600000000000400000000000200000000000400000000000600000000000800000000000900000000000800000000000800000000000800000000000900000000000800000000000600000000000900000000000400000000000600000000000200000000000600000000000400000000000700000000000919370000000719370000000800000000000800000000000400000000000400000000000200000000000400000000000600000000000200000000000600000000000600000000000600000000000400000000000300000000000200000000000700000000000400000000000800000000000800000000000))
 (.node 1 (.leaf 800000000000500000000000500000000000500000000000200000000000200000000000200000000000400000000000200000000000800000000000900000000000600000000000400000000000800000000000400000000000200000000000400000000000800000000000800000000000400000000000316780611978614450611965200000000000200000000000800000000000100000000000202780000000200000000000600000000000400000000000400000000000624550000000224180622013200000000000224020622009100000000000300000000000600000000000400000000000900000000000800000000000216130621987300000000000500000000000500000000000500000000000516850611973116850000000500000000000500000000000500000000000200000000000200000000000200000000000800000000000600000000000600000000000500000000000500000000000500000000000500000000000500000000000500000000000500000000000)
 (.leaf 800000000000800000000000500000000000500000000000500000000000500000000000500000000000500000000000400000000000400000000000400000000000600000000000400000000000800000000000700000000000700000000000600000000000400000000000400000000000400000000000700000000000800000000000100000000000200000000000400000000000300000000000200000000000600000000000300000000000300000000000400000000000200000000000900000000000800000000000600000000000400000000000900000000000600000000000600000000000700000000000800000000000600000000000800000000000800000000000600000000000400000000000800000000000900000000000800000000000600000000000900000000000800000000000800000000000719370000000400000000000100000000000800000000000600000000000500000000000400000000000600000000000600000000000400000000000300000000000)))
 (.node 2 (.node 1 (.leaf 200000000000600000000000600000000000600000000000600000000000600000000000400000000000600000000000200000000000600000000000100000000000100000000000100000000000300000000000200000000000200000000000200000000000500000000000500000000000400000000000800000000000600000000000400000000000400000000000800000000000800000000000800000000000400000000000700000000000400000000000200000000000200000000000300000000000200000000000200000000000800000000000300000000000400000000000400000000000200000000000600000000000223960000000600000000000300000000000100000000000300000000000100000000000700000000000800000000000900000000000600000000000800000000000500000000000500000000000500000000000500000000000500000000000500000000000500000000000200000000000200000000000600000000000600000000000200000000000)
 (.leaf 300000000000200000000000500000000000500000000000500000000000500000000000500000000000500000000000500000000000200000000000200000000000500000000000500000000000500000000000500000000000500000000000500000000000500000000000500000000000400000000000200000000000200000000000200000000000400000000000800000000000400000000000800000000000600000000000200000000000900000000000600000000000700000000000600000000000400000000000400000000000200000000000200000000000600000000000200000000000600000000000200000000000400000000000100000000000800000000000600000000000600000000000600000000000800000000000800000000000400000000000600000000000800000000000600000000000400000000000600000000000900000000000500000000000500000000000400000000000800000000000600000000000800000000000600000000000600000000000))
 (.node 1 (.leaf 600000000000300000000000200000000000400000000000600000000000200000000000200000000000200000000000500000000000500000000000800000000000800000000000700000000000600000000000100000000000420900000000400000000000406980000000300000000000616730611901700000000000300000000000300000000000200000000000400000000000800000000000700000000000300000000000500000000000500000000000402780000000800000000000600000000000100000000000200000000000200000000000600000000000600000000000223790622013224000000000600000000000800000000000920870611960100000000000100000000000220880611961215330611959715330000000200000000000600000000000500000000000500000000000500000000000500000000000500000000000500000000000500000000000500000000000500000000000500000000000500000000000800000000000400000000000600000000000)
 (.leaf 820890611976522060000000500000000000500000000000500000000000500000000000500000000000500000000000519360621972500000000000800000000000500000000000500000000000500000000000400000000000200000000000800000000000900000000000800000000000700000000000700000000000300000000000600000000000200000000000100000000000800000000000800000000000800000000000800000000000700000000000200000000000800000000000100000000000400000000000800000000000800000000000800000000000800000000000800000000000200000000000200000000000100000000000200000000000100000000000100000000000200000000000600000000000300000000000200000000000400000000000800000000000900000000000800000000000800000000000300000000000800000000000800000000000900000000000600000000000400000000000400000000000600000000000900000000000800000000000)))))))
 (.node 32 (.node 16 (.node 8 (.node 4 (.node 2 (.node 1 (.leaf 800000000000600000000000800000000000600000000000400000000000800000000000700000000000600000000000500000000000500000000000400000000000900000000000800000000000600000000000200000000000300000000000600000000000300000000000600000000000600000000000400000000000200000000000100000000000600000000000300000000000300000000000600000000000500000000000400000000000600000000000500000000000100000000000800000000000800000000000600000000000400000000000200000000000300000000000200000000000400000000000401850000000600000000000200000000000200000000000500000000000500000000000400000000000200000000000600000000000600000000000200000000000600000000000200000000000600000000000400000000000800000000000824540000000200000000000200000000000400000000000700000000000220930611960500000000000500000000000)
 (.leaf 500000000000500000000000500000000000500000000000500000000000500000000000500000000000400000000000400000000000600000000000600000000000622060000000500000000000500000000000800000000000800000000000800000000000500000000000500000000000400000000000200000000000807040000000500000000000500000000000500000000000506790100000506790000000500000000000200000000000200000000000200000000000200000000000200000000000800000000000200000000000400000000000600000000000800000000000400000000000300000000000300000000000600000000000400000000000300000000000200000000000200000000000200000000000200000000000400000000000400000000000100000000000300000000000200000000000600000000000600000000000200000000000600000000000400000000000800000000000700000000000400000000000600000000000300000000000900000000000))
 (.node 1 (.leaf 700000000000400000000000800000000000200000000000200000000000600000000000800000000000700000000000600000000000400000000000700000000000700000000000600000000000400000000000800000000000600000000000800000000000600000000000400000000000900000000000600000000000600000000000600000000000600000000000800000000000800000000000900000000000400000000000400000000000600000000000600000000000200000000000500000000000500000000000400000000000200000000000516680000000200000000000100000000000600000000000100000000000600000000000800000000000800000000000200000000000200000000000600000000000500000000000500000000000500000000000300000000000600000000000600000000000416810611986200000000000600000000000600000000000400000000000500000000000500000000000500000000000500000000000500000000000500000000000)
 (.leaf 500000000000500000000000500000000000500000000000400000000000623500000000200000000000200000000000400000000000618050000000800000000000600000000000500000000000400000000000600000000000500000000000400000000000500000000000500000000000506790000000506790000000500000000000400000000000300000000000100000000000400000000000600000000000400000000000600000000000200000000000400000000000200000000000400000000000700000000000400000000000300000000000100000000000600000000000100000000000600000000000400000000000400000000000200000000000100000000000200000000000700000000000300000000000200000000000300000000000600000000000100000000000400000000000400000000000200000000000800000000000600000000000800000000000900000000000800000000000600000000000700000000000100000000000100000000000600000000000)))
 (.node 2 (.node 1 (.leaf 400000000000100000000000100000000000600000000000400000000000500000000000500000000000200000000000100000000000800000000000200000000000200000000000600000000000800000000000800000000000300000000000600000000000400000000000600000000000800000000000400000000000600000000000500000000000500000000000500000000000500000000000400000000000300000000000816690000000800000000000600000000000400000000000120950611970900000000000813740000000600000000000500000000000400000000000100000000000600000000000400000000000600000000000400000000000400000000000200000000000600000000000600000000000200000000000500000000000500000000000500000000000500000000000500000000000500000000000500000000000500000000000800000000000200000000000600000000000400000000000900000000000800000000000400000000000600000000000)
 (.leaf 500000000000800000000000400000000000600000000000500000000000500000000000500000000000700000000000500000000000805860000000200000000000500000000000500000000000500000000000500000000000100000000000100000000000100000000000100000000000600000000000400000000000900000000000600000000000800000000000400000000000300000000000400000000000600000000000400000000000700000000000800000000000200000000000200000000000200000000000200000000000100000000000700000000000700000000000600000000000600000000000100000000000600000000000400000000000100000000000400000000000200000000000400000000000300000000000300000000000200000000000400000000000700000000000200000000000600000000000600000000000600000000000200000000000200000000000400000000000600000000000100000000000600000000000600000000000500000000000))
 (.node 1 (.leaf 200000000000800000000000600000000000900000000000800000000000600000000000900000000000800000000000800000000000600000000000600000000000800000000000900000000000800000000000200000000000200000000000600000000000500000000000500000000000416700611995300000000000200000000000600000000000300000000000800000000000300000000000200000000000200000000000400000000000200000000000413740611979800000000000600000000000800000000000800000000000200000000000200000000000600000000000318810611971300000000000600000000000100000000000400000000000600000000000500000000000500000000000500000000000500000000000500000000000500000000000500000000000400000000000200000000000400000000000000000000000018901411946218900000000400000000000000000000000900000000000900000000000600000000000400000000000500000000000)
 (.leaf 500000000000500000000000500000000000500000000000500000000000500000000000500000000000500000000000500000000000500000000000500000000000400000000000400000000000100000000000800000000000700000000000600000000000800000000000600000000000100000000000600000000000400000000000600000000000400000000000300000000000200000000000200000000000100000000000100000000000900000000000600000000000300000000000200000000000600000000000600000000000400000000000100000000000200000000000100000000000600000000000400000000000200000000000600000000000400000000000900000000000600000000000400000000000200000000000200000000000200000000000200000000000100000000000200000000000800000000000800000000000500000000000100000000000600000000000600000000000800000000000600000000000800000000000800000000000800000000000))))
 (.node 4 (.node 2 (.node 1 (.leaf 900000000000600000000000400000000000600000000000200000000000400000000000200000000000600000000000800000000000200000000000600000000000501560100000501560000000500000000000500000000000400000000000600000000000700000000000424490622015200000000000600000000000400000000000100000000000600000000000500000000000500000000000800000000000500000000000500000000000500000000000500000000000500000000000400000000000200000000000100000000000200000000000100000000000800000000000800000000000700000000000200000000000400000000000600000000000500000000000900000000000600000000000500000000000200000000000400000000000617740611984500000000000500000000000500000000000400000000000800000000000800000000000800000000000800000000000800000000000200000000000600000000000800000000000600000000000800000000000)
 (.leaf 200000000000100000000000400000000000600000000000400000000000200000000000200000000000300000000000300000000000600000000000600000000000600000000000400000000000200000000000300000000000200000000000600000000000400000000000400000000000200000000000400000000000600000000000400000000000600000000000600000000000400000000000600000000000400000000000800000000000500000000000100000000000800000000000600000000000900000000000800000000000900000000000800000000000800000000000800000000000800000000000900000000000200000000000600000000000400000000000300000000000616860611972809080000000300000000000316930000000300000000000600000000000416970612001200000000000200000000000501560000000400000000000600000000000400000000000200000000000400000000000400000000000900000000000200000000000200000000000))
 (.node 1 (.leaf 600000000000200000000000300000000000600000000000200000000000500000000000417000000000914420621970616140621979500000000000500000000000500000000000200000000000200000000000400000000000600000000000200000000000400000000000300000000000600000000000500000000000500000000000400000000000400000000000900000000000900000000000500000000000500000000000500000000000500000000000500000000000500000000000500000000000512050000000417750611978217740000000200000000000200000000000500000000000500000000000500000000000500000000000500000000000500000000000400000000000700000000000700000000000600000000000200000000000200000000000900000000000900000000000200000000000600000000000600000000000800000000000400000000000400000000000100000000000200000000000300000000000400000000000100000000000800000000000)
 (.leaf 600000000000600000000000600000000000400000000000300000000000200000000000600000000000200000000000100000000000400000000000200000000000400000000000200000000000600000000000200000000000100000000000600000000000400000000000400000000000600000000000400000000000700000000000100000000000200000000000200000000000600000000000400000000000800000000000600000000000900000000000900000000000800000000000800000000000600000000000900000000000600000000000500000000000500000000000416870000000616870621927600000000000900000000000300000000000600000000000800000000000800000000000500000000000500000000000500000000000600000000000400000000000200000000000200000000000400000000000200000000000400000000000200000000000200000000000200000000000517000000000717000611995500000000000516140000000500000000000)))
 (.node 2 (.node 1 (.leaf 220980000000400000000000200000000000500000000000508130000000800000000000400000000000600000000000500000000000500000000000500000000000500000000000500000000000500000000000500000000000500000000000500000000000500000000000500000000000505400000000500000000000500000000000500000000000500000000000500000000000500000000000500000000000500000000000500000000000500000000000500000000000400000000000700000000000400000000000100000000000100000000000400000000000700000000000200000000000200000000000600000000000600000000000800000000000300000000000200000000000400000000000300000000000200000000000400000000000400000000000300000000000600000000000600000000000600000000000300000000000300000000000600000000000300000000000400000000000400000000000300000000000600000000000400000000000900000000000)
 (.leaf 600000000000900000000000800000000000800000000000800000000000400000000000900000000000400000000000600000000000500000000000500000000000700000000000800000000000600000000000800000000000600000000000200000000000800000000000800000000000900000000000900000000000800000000000900000000000600000000000416870000000616880611927600000000000600000000000400000000000118570621960818570000000500000000000400000000000200000000000600000000000424500622011223460000000800000000000500000000000500000000000500000000000500000000000500000000000800000000000500000000000500000000000200000000000800000000000800000000000400000000000820990000000800000000000800000000000100000000000600000000000500000000000500000000000500000000000500000000000500000000000500000000000500000000000500000000000500000000000))
 (.node 1 (.leaf 500000000000500000000000500000000000500000000000100000000000800000000000800000000000400000000000400000000000200000000000200000000000200000000000900000000000800000000000800000000000800000000000100000000000800000000000900000000000600000000000400000000000300000000000200000000000400000000000200000000000600000000000200000000000400000000000100000000000400000000000300000000000600000000000100000000000600000000000200000000000200000000000400000000000800000000000400000000000600000000000200000000000200000000000600000000000700000000000400000000000400000000000100000000000100000000000200000000000800000000000600000000000500000000000500000000000400000000000600000000000600000000000800000000000800000000000800000000000500000000000500000000000500000000000500000000000613920621964)
 (.leaf 200000000000300000000000800000000000800000000000200000000000300000000000200000000000221010611992200000000000500000000000500000000000200000000000200000000000400000000000200000000000600000000000400000000000500000000000600000000000500000000000500000000000200000000000400000000000700000000000700000000000100000000000200000000000900000000000900000000000600000000000800000000000800000000000400000000000411930100000500000000000500000000000500000000000500000000000500000000000500000000000500000000000400000000000400000000000200000000000100000000000600000000000400000000000400000000000200000000000200000000000200000000000200000000000300000000000300000000000300000000000600000000000400000000000200000000000200000000000400000000000400000000000200000000000100000000000600000000000)))))
 (.node 8 (.node 4 (.node 2 (.node 1 (.leaf 100000000000600000000000200000000000600000000000400000000000800000000000800000000000300000000000600000000000800000000000800000000000900000000000800000000000800000000000600000000000100000000000700000000000600000000000400000000000600000000000900000000000800000000000600000000000800000000000800000000000800000000000900000000000800000000000800000000000500000000000500000000000500000000000413920000000200000000000800000000000400000000000600000000000300000000000300000000000300000000000500000000000200000000000400000000000800000000000200000000000900000000000900000000000916990611973313891422009400000000000600000000000500000000000500000000000800000000000900000000000500000000000500000000000500000000000500000000000400000000000319050000000400000000000800000000000600000000000)
 (.leaf 800000000000411930000000800000000000800000000000500000000000500000000000500000000000500000000000500000000000500000000000500000000000500000000000505420000000800000000000100000000000200000000000600000000000400000000000300000000000200000000000400000000000100000000000600000000000400000000000600000000000200000000000400000000000700000000000400000000000200000000000600000000000200000000000400000000000600000000000600000000000700000000000400000000000600000000000800000000000800000000000800000000000800000000000300000000000600000000000400000000000900000000000400000000000600000000000800000000000800000000000400000000000600000000000400000000000200000000000300000000000600000000000800000000000900000000000800000000000700000000000800000000000800000000000800000000000800000000000))
 (.node 1 (.leaf 900000000000600000000000400000000000800000000000500000000000500000000000500000000000500000000000500000000000400000000000600000000000300000000000800000000000200000000000300000000000600000000000200000000000500000000000200000000000500000000000500000000000400000000000600000000000205130611969205130000000600000000000200000000000100000000000200000000000600000000000500000000000500000000000200000000000500000000000500000000000500000000000200000000000200000000000800000000000619050000000502850100000502850000000901720000000600000000000700000000000600000000000500000000000500000000000500000000000500000000000500000000000500000000000400000000000400000000000600000000000700000000000100000000000100000000000600000000000807630000000600000000000100000000000200000000000100000000000)
 (.leaf 200000000000200000000000400000000000700000000000700000000000400000000000400000000000700000000000300000000000200000000000100000000000600000000000600000000000800000000000900000000000400000000000400000000000600000000000800000000000600000000000300000000000300000000000800000000000700000000000600000000000600000000000800000000000400000000000400000000000700000000000600000000000400000000000200000000000200000000000200000000000200000000000900000000000800000000000300000000000600000000000200000000000600000000000500000000000400000000000616890611977600000000000500000000000500000000000500000000000500000000000800000000000800000000000600000000000200000000000900000000000400000000000400000000000100000000000823990622014500000000000500000000000812540611983800000000000500000000000)))
 (.node 2 (.node 1 (.leaf 500000000000500000000000500000000000500000000000500000000000821060611980400000000000800000000000400000000000600000000000500000000000500000000000500000000000500000000000500000000000400000000000400000000000400000000000400000000000800000000000800000000000800000000000400000000000400000000000609790100000410390100000600000000000300000000000300000000000200000000000100000000000400000000000400000000000200000000000200000000000200000000000100000000000200000000000100000000000200000000000900000000000800000000000400000000000600000000000800000000000400000000000700000000000800000000000800000000000800000000000600000000000900000000000400000000000100000000000600000000000100000000000800000000000800000000000800000000000400000000000400000000000600000000000500000000000500000000000)
 (.leaf 500000000000800000000000600000000000300000000000600000000000500000000000900000000000614720611973600000000000100000000000900000000000600000000000500000000000500000000000500000000000500000000000200000000000600000000000414821421930200000000000600000000000300000000000100000000000400000000000500000000000114310621974500000000000500000000000500000000000200000000000700000000000600000000000600000000000900000000000600000000000900000000000900000000000510670100000522110000000500000000000500000000000500000000000500000000000500000000000400000000000400000000000400000000000200000000000400000000000700000000000800000000000800000000000800000000000600000000000400000000000700000000000600000000000600000000000700000000000700000000000900000000000900000000000300000000000300000000000))
 (.node 1 (.leaf 200000000000200000000000600000000000400000000000100000000000200000000000400000000000600000000000600000000000600000000000400000000000200000000000800000000000600000000000900000000000800000000000700000000000600000000000800000000000400000000000600000000000400000000000900000000000600000000000200000000000800000000000900000000000600000000000400000000000800000000000200000000000600000000000400000000000800000000000800000000000400000000000600000000000500000000000500000000000400000000000100000000000600000000000900000000000800000000000900000000000800000000000800000000000800000000000800000000000200000000000500000000000416900000000116900611987800000000000800000000000200000000000200000000000600000000000500000000000817920000000221070000000300000000000100000000000600000000000)
 (.leaf 400000000000223470000000800000000000823980622013400000000000521910000000500000000000500000000000200000000000210910100000600000000000600000000000700000000000600000000000500000000000500000000000500000000000500000000000500000000000500000000000500000000000500000000000200000000000400000000000200000000000800000000000400000000000400000000000400000000000300000000000400000000000700000000000100000000000700000000000600000000000200000000000400000000000400000000000200000000000400000000000400000000000600000000000300000000000100000000000100000000000800000000000600000000000600000000000400000000000900000000000400000000000900000000000800000000000800000000000200000000000200000000000600000000000600000000000800000000000400000000000600000000000400000000000400000000000100000000000))))
 (.node 4 (.node 2 (.node 1 (.leaf 300000000000200000000000500000000000500000000000100000000000900000000000800000000000900000000000200000000000600000000000600000000000500000000000400000000000600000000000800000000000617060000000500000000000217920000000217920611985600000000000600000000000800000000000800000000000800000000000800000000000806210621971200000000000224530622006100000000000800000000000500000000000500000000000421910721968500000000000500000000000200000000000200000000000600000000000100000000000800000000000300000000000900000000000600000000000900000000000600000000000510880100000500000000000500000000000500000000000500000000000500000000000400000000000100000000000100000000000100000000000400000000000800000000000200000000000200000000000200000000000100000000000700000000000800000000000800000000000)
 (.leaf 400000000000900000000000600000000000200000000000600000000000600000000000200000000000200000000000400000000000200000000000400000000000100000000000300000000000300000000000300000000000300000000000300000000000400000000000600000000000800000000000700000000000400000000000100000000000100000000000600000000000400000000000200000000000800000000000300000000000200000000000400000000000600000000000400000000000400000000000800000000000400000000000600000000000400000000000800000000000500000000000400000000000300000000000200000000000800000000000900000000000200000000000500000000000407970621965907970000000900000000000600000000000300000000000400000000000800000000000800000000000200000000000400000000000200000000000600000000000200000000000224700000000400000000000300000000000500000000000))
 (.node 1 (.leaf 500000000000506080100000721910000000500000000000500000000000500000000000500000000000219220000000400000000000200000000000100000000000600000000000800000000000600000000000600000000000212370000000200000000000400000000000400000000000400000000000600000000000800000000000400000000000400000000000200000000000300000000000200000000000300000000000600000000000200000000000400000000000200000000000400000000000200000000000200000000000400110000000200110000000100000000000600000000000400000000000400000000000200000000000400000000000400000000000200000000000600000000000800000000000800000000000800000000000800000000000600000000000800000000000400000000000823750000000400000000000400000000000400000000000800000000000500000000000500000000000400000000000300000000000200000000000100000000000)
 (.leaf 600000000000500000000000507970000000917080621993800000000000800000000000800000000000900000000000600000000000500000000000200000000000300000000000400000000000600000000000124700000000300000000000200000000000500000000000506080000000506080000000500000000000500000000000500000000000500000000000500000000000500000000000500000000000500000000000400000000000900000000000600000000000500000000000500000000000500000000000500000000000100000000000400000000000700000000000600000000000400000000000600000000000200000000000600000000000100000000000700000000000800000000000700000000000300000000000600000000000900000000000900000000000600110000000400110000000800000000000200000000000100000000000200000000000100000000000400000000000600000000000200000000000200000000000100000000000200000000000)))
 (.node 2 (.node 1 (.leaf 300000000000300000000000300000000000300000000000600000000000400000000000400000000000400000000000600000000000400000000000600000000000400000000000600000000000400000000000200000000000500000000000500000000000500000000000911710611953900000000000800000000000400000000000200000000000200000000000200000000000200000000000600000000000500000000000500000000000800000000000500000000000200000000000200000000000800000000000600000000000200530000000100000000000424190000000400000000000500000000000500000000000500000000000500000000000500000000000500000000000500000000000500000000000500000000000500000000000400000000000200000000000600000000000600000000000500000000000400000000000400000000000400000000000800000000000600000000000800000000000800000000000800000000000600000000000100000000000)
 (.leaf 300000000000600000000000600000000000600000000000300000000000400000000000400000000000600000000000700110000000700000000000400000000000400000000000200000000000300000000000600000000000200000000000600000000000600000000000600000000000700000000000800000000000400000000000600000000000600000000000800000000000700000000000600000000000500000000000500000000000500000000000500000000000500000000000500000000000400000000000617090611983300000000000500000000000500000000000517130611966500000000000200000000000600000000000400000000000800000000000400000000000800000000000500000000000500000000000500000000000500000000000500000000000500000000000500000000000501360000000200180000000200000000000600000000000500000000000500000000000500000000000500000000000500000000000500000000000500000000000))
 (.node 1 (.leaf 500000000000400000000000400000000000700000000000600000000000800000000000700000000000800000000000800000000000100000000000900000000000600000000000100000000000200000000000400000000000800000000000600000000000600000000000400000000000900000000000600000000000600000000000900000000000800110000000400000000000400000000000700000000000700000000000200000000000100000000000700000000000100000000000400000000000300000000000300000000000200000000000900000000000800000000000800000000000600000000000400000000000800000000000400000000000400000000000800000000000800000000000900000000000800000000000800000000000400000000000200000000000800000000000500000000000500000000000500000000000500000000000500000000000500000000000500000000000600000000000600000000000500000000000500000000000500000000000)
 (.leaf 500000000000500000000000600000000000600530000000400000000000123850621995423810622007600000000000500000000000500000000000500000000000500000000000500000000000500000000000500000000000500000000000500000000000500000000000500000000000500000000000100180000000600000000000500000000000500000000000500000000000500000000000502110100000500000000000500000000000800000000000400000000000700000000000800000000000300000000000900000000000800000000000800000000000400000000000423240000000600000000000200000000000200000000000200000000000300000000000300000000000200000000000700000000000700000000000700000000000615670611992800000000000200000000000600000000000800000000000800000000000800000000000800000000000700000000000300000000000300000000000200000000000200000000000700000000000700000000000))))))
 (.node 16 (.node 8 (.node 4 (.node 2 (.node 1 (.leaf 200000000000200000000000300000000000100000000000200000000000800000000000300000000000600000000000400000000000402030000000400000000000100480000000200000000000200000000000700000000000600000000000500000000000500000000000500000000000500000000000400000000000917100611974800000000000600000000000600000000000500000000000500000000000500000000000800000000000500000000000500000000000400000000000300000000000300000000000300000000000423840000000500000000000500000000000500000000000500000000000500000000000500000000000500000000000500000000000500000000000500000000000500000000000500000000000500180000000600000000000500000000000500000000000600000000000500000000000502110000000500000000000500000000000500000000000500000000000500000000000500000000000500000000000400000000000800000000000)
 (.leaf 200000000000600000000000800000000000800000000000800000000000600000000000800000000000300000000000400000000000100000000000700000000000100000000000200000000000200000000000800000000000600000000000900000000000800000000000400000000000400000000000600000000000200000000000100000000000200000000000300000000000200000000000100000000000800000000000600000000000400000000000700000000000400000000000800000000000400000000000900000000000600000000000600000000000800000000000800000000000500000000000500000000000500000000000500000000000400000000000500000000000500000000000400000000000617110611955200000000000200000000000500000000000500000000000500000000000500000000000500000000000100000000000600000000000200000000000421090622001200000000000500000000000500000000000500000000000500000000000))
 (.node 1 (.leaf 500000000000500000000000500000000000500000000000500000000000500000000000500000000000500000000000500000000000200000000000814190000000510850100000400000000000200000000000800000000000900000000000500000000000500000000000800000000000800000000000500000000000500000000000500000000000500000000000500000000000500000000000500000000000500000000000500000000000500000000000500000000000400000000000400000000000617030000000900000000000900000000000900000000000400000000000200000000000200000000000600000000000600000000000200000000000300000000000600000000000800000000000800000000000800000000000300910000000400000000000200000000000800000000000600000000000800000000000617050000000600000000000200000000000600000000000400000000000100000000000100000000000200000000000100000000000400000000000)
 (.leaf 300000000000600000000000200000000000200000000000300000000000200000000000600000000000400000000000800000000000800000000000800000000000800000000000200000000000200000000000100000000000400000000000100000000000600000000000600000000000700000000000900000000000500000000000500000000000400000000000200000000000600000000000700000000000300000000000600000000000400000000000500000000000500000000000500000000000500000000000223250622012200000000000400000000000500000000000500000000000500000000000500000000000500000000000500000000000500000000000500000000000500000000000500000000000500000000000500000000000914190621978910860000000610860000000410850000000300000000000200000000000600000000000400000000000600000000000300000000000900000000000800000000000400000000000600000000000517020611982)))
 (.node 2 (.node 1 (.leaf 700000000000600000000000500000000000500000000000500000000000200000000000117030000000200000000000600000000000800000000000700000000000800000000000600000000000400000000000800000000000600000000000400000000000400000000000900000000000900000000000900000000000800000000000600910000000100000000000400000000000700000000000900000000000600000000000200000000000617050000000200000000000800000000000200000000000600000000000700000000000400000000000400000000000100000000000400000000000600000000000600000000000400000000000600000000000400000000000400000000000614001421901900000000000600000000000800000000000800000000000200000000000600000000000800000000000300000000000300000000000300000000000500000000000500000000000500000000000500000000000500000000000500000000000500000000000500000000000)
 (.leaf 500000000000500000000000500000000000500000000000500000000000500000000000500000000000500000000000500000000000500000000000500000000000400000000000900000000000600000000000500000000000400000000000100000000000400000000000600000000000400000000000800000000000200000000000200000000000217930611983213560000000113560621968100000000000600000000000700000000000200000000000100000000000800000000000800000000000800000000000700000000000600000000000600000000000200000000000600000000000300000000000600000000000200000000000400000000000600000000000200000000000900000000000600000000000100000000000400000000000100000000000400000000000600000000000300000000000100000000000100000000000400000000000400000000000700000000000700000000000800000000000600000000000300000000000200000000000600000000000))
 (.node 1 (.leaf 400000000000400000000000400000000000400000000000800000000000800000000000800000000000400000000000900000000000900000000000800000000000300000000000800000000000200000000000700000000000900000000000800000000000200000000000300000000000600000000000417200000000717200621974300000000000500000000000504140100000500000000000500000000000500000000000500000000000600000000000500000000000500000000000500000000000500000000000500000000000500000000000500000000000500000000000509760100000509760000000500000000000500000000000500000000000500000000000500000000000500000000000500000000000106050100000600000000000521100000000521100621938500000000000503000621975503000000000500000000000300000000000600000000000400000000000222070611988222070000000200000000000600000000000800000000000900000000000)
 (.leaf 600000000000800000000000800000000000500000000000400000000000900000000000800000000000800000000000700000000000200000000000200000000000300000000000200000000000200000000000600000000000600000000000200000000000100000000000200000000000300000000000600000000000400000000000200000000000200000000000200000000000200000000000200000000000200000000000400000000000100000000000800000000000800000000000800000000000800000000000400000000000800000000000900000000000800000000000800000000000300000000000600000000000600000000000400000000000400000000000800000000000700000000000804640621973800000000000700000000000623340622015800000000000200000000000200000000000200000000000300000000000600000000000200000000000200000000000400000000000600000000000500000000000500000000000521110611922500000000000))))
 (.node 4 (.node 2 (.node 1 (.leaf 500000000000503610000000500000000000500000000000200000000000500000000000500000000000500000000000500000000000500000000000500000000000500000000000500000000000500000000000609760000000500000000000500000000000506050000000200000000000200000000000500000000000500000000000500000000000500000000000500000000000500000000000500000000000300000000000500000000000500000000000500000000000500000000000400000000000400000000000300000000000200000000000200000000000200000000000300000000000300000000000900000000000900000000000900000000000500000000000100000000000200000000000200000000000100000000000800000000000800000000000600000000000600000000000300000000000600000000000607860000000200000000000600000000000200000000000200000000000900000000000400000000000400000000000800000000000800000000000)
 (.leaf 600000000000400000000000800000000000800000000000700000000000700000000000800000000000200000000000900000000000800000000000600000000000800000000000400000000000200000000000400000000000200000000000800000000000600000000000200000000000200000000000300000000000200000000000600000000000600000000000200000000000600000000000500000000000621120611986400000000000500000000000903610611987500000000000500000000000500000000000500000000000500000000000500000000000600000000000500000000000500000000000500000000000500000000000500000000000200000000000600000000000500000000000500000000000500000000000800000000000600000000000800000000000800000000000217180611983209000622012300000000000600000000000800000000000800000000000800000000000400000000000100000000000200000000000100000000000600000000000))
 (.node 1 (.leaf 300000000000200000000000300000000000200000000000600000000000600000000000200000000000200000000000800000000000800000000000600000000000100000000000200000000000400000000000400000000000400000000000600000000000900000000000800000000000900000000000700000000000800000000000800000000000200000000000200000000000300000000000300000000000900000000000600000000000600000000000900000000000400000000000400000000000222400000000600000000000200000000000100000000000600000000000200000000000800000000000900000000000600000000000500000000000500000000000500000000000521130611958500000000000500000000000400000000000821140611901500000000000500000000000800000000000600000000000500000000000500000000000600000000000800000000000200000000000500000000000500000000000500000000000500000000000500000000000)
 (.leaf 700000000000800000000000900000000000600000000000400000000000900000000000600000000000600000000000800000000000621150000000200000000000200000000000900000000000900000000000600000000000500000000000100000000000200000000000200000000000200000000000200000000000400000000000200000000000600000000000600000000000600200000000400000000000400000000000900000000000200000000000600000000000700000000000800000000000400000000000800000000000800000000000800000000000600000000000800000000000900000000000400000000000700000000000600000000000200000000000400000000000200000000000600000000000900000000000900000000000800000000000800000000000400000000000400000000000300000000000800000000000823320622004622400000000400000000000300000000000600000000000400000000000600000000000600000000000200000000000)))
 (.node 2 (.node 1 (.leaf 200000000000200000000000600000000000400000000000617210611983500000000000500000000000500000000000200000000000501350000000500000000000500000000000500000000000500000000000500000000000803960000000200000000000700000000000500000000000500000000000500000000000500000000000500000000000500000000000800000000000600000000000723300000000600000000000600000000000800000000000800000000000800000000000621150000000600000000000600000000000800000000000500000000000500000000000500000000000200000000000200860000000200000000000400000000000200000000000200000000000900000000000300000000000200000000000600200000000200000000000300000000000200000000000200000000000100000000000200000000000600000000000200000000000300000000000200000000000200000000000400000000000800000000000700000000000200000000000)
 (.leaf 900000000000800000000000100000000000900000000000600000000000600000000000400000000000100000000000200000000000200000000000300000000000100000000000900000000000900000000000900000000000900000000000800000000000800000000000400000000000200000000000123330000000222400000000822400000000917190621989600000000000200000000000600000000000200000000000200000000000200000000000600000000000200000000000500000000000500000000000400000000000821870611986613730611956500000000000500000000000500000000000500000000000500000000000600000000000600000000000500000000000500000000000500000000000500000000000500000000000500000000000500000000000500000000000500000000000500000000000400000000000900000000000900000000000600000000000900000000000800000000000600000000000500000000000200000000000200000000000))
 (.node 1 (.leaf 100000000000100000000000200000000000200000000000200000000000200000000000600000000000200000000000800000000000400000000000200000000000204350000000400000000000200000000000100000000000900000000000900000000000900000000000800000000000700000000000400000000000800000000000400000000000100000000000100000000000100000000000200000000000400000000000800000000000800000000000800000000000400000000000800000000000400000000000401290000000200000000000200000000000200000000000200000000000600000000000200000000000600000000000400000000000200000000000200000000000500000000000500000000000500000000000800000000000800000000000500000000000500000000000500000000000500000000000500000000000500000000000500000000000500000000000500000000000500000000000500000000000400000000000614540621976800000000000)
 (.leaf 800000000000600000000000700000000000400000000000800000000000800000000000800000000000800000000000800000000000600000000000500000000000200000000000200000000000300000000000200000000000200000000000100000000000600200000000205680000000100000000000100000000000400000000000200000000000800000000000800000000000300000000000218230621988300000000000204350000000200000000000200000000000600000000000800000000000700000000000200000000000100000000000200000000000400000000000400000000000300000000000400000000000800000000000800000000000700000000000400000000000800000000000700000000000800000000000800000000000301290000000300000000000600000000000200000000000300000000000600000000000200000000000600000000000500000000000500000000000500000000000415160611969800000000000500000000000600000000000)))))
 (.node 8 (.node 4 (.node 2 (.node 1 (.leaf 500000000000500000000000500000000000500000000000500000000000800000000000500000000000500000000000500000000000500000000000500000000000400000000000400000000000400000000000600000000000300000000000300000000000600000000000600000000000400000000000700000000000800000000000100000000000700000000000800000000000400000000000700000000000300000000000600000000000800000000000500000000000100000000000600000000000200000000000200000000000200000000000500000000000500000000000100000000000200000000000300000000000400000000000304100000000204100621974400000000000300000000000300000000000200000000000800000000000600000000000800000000000600000000000200000000000100000000000400000000000600000000000400000000000100000000000100000000000800000000000400000000000800000000000800000000000400000000000)
 (.leaf 300000000000200000000000100000000000204390100000204390000000300000000000600000000000600000000000600000000000500000000000500000000000500000000000400000000000814850611981106460621978500000000000400000000000600000000000500000000000500000000000500000000000500000000000500000000000500000000000500000000000500000000000500000000000400000000000923290622002400000000000815140621962221160621976300000000000300000000000600000000000400000000000600000000000400000000000700000000000400000000000800000000000800000000000600000000000800000000000200000000000200000000000200000000000500000000000500000000000500000000000200000000000200000000000200000000000700000000000700000000000200000000000200000000000200000000000200000000000200000000000200000000000300000000000200000000000300000000000))
 (.node 1 (.leaf 200000000000300000000000400000000000800000000000800000000000800000000000900000000000400000000000200000000000200000000000600000000000200000000000200000000000200000000000600000000000200000000000100000000000500000000000500000000000500000000000700000000000500000000000500000000000400000000000400000000000500000000000500000000000500000000000500000000000500000000000500000000000500000000000500000000000400000000000600000000000415140000000200000000000600000000000900000000000400000000000100000000000100000000000800000000000900000000000400000000000300000000000200000000000200000000000600000000000800000000000621170000000818240000000500000000000200000000000500000000000500000000000400000000000100000000000100000000000400000000000400000000000200000000000300000000000600000000000)
 (.leaf 800000000000700000000000200000000000400000000000700000000000800000000000100000000000400000000000800000000000700000000000700000000000800000000000700000000000600000000000800000000000600190000000404060000000200000000000600000000000600000000000100000000000600000000000100000000000600000000000500000000000500000000000500000000000200000000000800000000000500000000000500000000000500000000000800000000000200000000000803230621985500000000000500000000000200000000000800000000000800000000000900000000000200000000000500000000000800000000000600000000000400000000000300000000000600000000000600000000000300000000000600000000000200000000000200000000000700000000000600000000000800000000000800000000000300000000000300000000000300000000000900000000000800000000000900000000000800000000000)))
 (.node 2 (.node 1 (.leaf 800000000000900000000000500000000000500000000000400000000000200000000000200000000000600000000000200000000000600000000000200000000000400000000000400000000000200000000000100000000000100000000000100000000000400000000000800000000000900000000000800000000000700000000000800000000000800000000000600190000000800000000000200000000000600000000000800000000000300000000000600000000000200000000000100000000000600000000000200000000000600000000000500000000000500000000000500000000000500000000000100000000000800000000000600000000000500000000000600000000000400000000000500000000000500000000000500000000000800000000000700000000000800000000000300000000000600000000000500000000000500000000000500000000000415290621965600000000000600000000000800000000000600000000000600000000000400000000000)
 (.leaf 100000000000600000000000700000000000300000000000300000000000400000000000800000000000900000000000900000000000700000000000900000000000500000000000500000000000500000000000200000000000300000000000200000000000200000000000600000000000600000000000400000000000400000000000400000000000400000000000400000000000800000000000900000000000400000000000800000000000700000000000600000000000800000000000600190000000300000000000300000000000600000000000600000000000100000000000400000000000600000000000600000000000900000000000600000000000500000000000200000000000200000000000500000000000500000000000600000000000200000000000500000000000500000000000500000000000500000000000400000000000600000000000500000000000500000000000500000000000500000000000400000000000900000000000400000000000200000000000))
 (.node 1 (.leaf 600000000000600000000000600000000000800000000000600000000000400000000000400000000000600000000000400000000000800000000000700000000000800000000000500000000000500000000000400000000000800000000000200000000000200000000000300000000000600000000000200000000000100000000000400000000000200000000000400000000000100000000000600000000000400000000000400000000000600000000000400000000000200000000000800000000000600000000000600000000000400000000000600000000000300000000000200000000000300000000000200000000000600000000000400000000000300000000000200000000000300000000000200000000000500000000000800000000000800000000000500000000000500000000000200000000000500000000000500000000000400000000000800000000000400000000000200000000000500000000000500000000000400000000000613720000000200000000000)
 (.leaf 300000000000800000000000100000000000400000000000400000000000800000000000600000000000900000000000800000000000800000000000400000000000800000000000800000000000900000000000800000000000900000000000600000000000900000000000600000000000400000000000100000000000100000000000200000000000100000000000200000000000600000000000600000000000400000000000200000000000200000000000400000000000400000000000200000000000400000000000700000000000700000000000700000000000100000000000400000000000800000000000400000000000400000000000200000000000400000000000600000000000900000000000700190000000300000000000600000000000600000000000300000000000100000000000200000000000200000000000200000000000500000000000500000000000500000000000500000000000400000000000601200000000500000000000600000000000600000000000))))
 (.node 4 (.node 2 (.node 1 (.leaf 500000000000500000000000500000000000500000000000424400622015200000000000500000000000500000000000500000000000800000000000800000000000100000000000700000000000200000000000600000000000300000000000600000000000800000000000400000000000400000000000600000000000900000000000300000000000200000000000900000000000600000000000700000000000400000000000200000000000200000000000200000000000800000000000200000000000600000000000200000000000600000000000500000000000600000000000200000000000600000000000200000000000200000000000200000000000400000000000200000000000400000000000200000000000200000000000200000000000400000000000100000000000200000000000800000000000100000000000400000000000700000000000400000000000900000000000900190000000900000000000300000000000300000000000100000000000200000000000)
 (.leaf 100000000000200000000000500000000000500000000000500000000000901200000000601200000000500000000000500000000000500000000000600000000000424400000000600000000000500000000000500000000000500000000000500000000000500000000000400000000000900000000000200000000000600000000000300000000000700000000000600000000000600000000000600000000000200000000000200000000000400000000000300000000000200000000000300000000000200000000000200000000000100000000000800000000000600000000000600000000000200000000000200000000000200000000000200000000000300000000000200000000000100000000000500000000000500000000000800000000000800000000000300000000000100000000000800000000000100000000000100000000000400000000000400000000000200000000000400800000000400000000000400000000000200000000000200000000000400000000000))
 (.node 1 (.leaf 500000000000500000000000500000000000100000000000600000000000800000000000500000000000500000000000500000000000300000000000500000000000500000000000500000000000500000000000800000000000800000000000700000000000423480000000600000000000900000000000600000000000600000000000500000000000500000000000500000000000500000000000500000000000400000000000800000000000600000000000200000000000200000000000600000000000600000000000400000000000700000000000300000000000200000000000200000000000400000000000100000000000800000000000200000000000600000000000300000000000200000000000600000000000900000000000400000000000200000000000800000000000200000000000200000000000400000000000300000000000200000000000200000000000400000000000800000000000400000000000800000000000800000000000900000000000800000000000)
 (.leaf 800000000000900000000000600000000000600000000000500000000000500000000000500000000000500000000000900000000000600000000000800000000000600000000000500000000000500000000000500000000000500000000000400000000000800000000000800000000000418250621985200000000000100000000000100000000000200000000000600000000000200000000000600000000000800000000000300000000000800000000000500000000000500000000000500000000000500000000000500000000000500000000000500000000000500000000000500000000000500000000000500000000000500000000000500000000000800000000000800000000000400000000000600000000000600000000000200000000000200000000000300000000000200000000000600000000000600000000000400000000000200000000000200000000000200000000000400000000000400000000000300000000000200000000000300000000000200000000000)))
 (.node 2 (.node 1 (.leaf 400000000000300000000000300000000000600000000000500000000000800000000000200000000000200000000000400000000000600000000000200000000000400000000000700000000000400000000000800000000000700000000000800000000000400000000000800000000000800000000000700000000000700000000000800000000000400000000000400000000000800000000000900000000000900000000000600000000000300000000000500000000000500000000000500000000000500000000000700000000000900000000000600000000000500000000000500000000000500000000000500000000000500000000000800000000000200000000000300000000000600000000000400000000000300000000000600000000000500000000000500000000000500000000000800000000000200000000000600000000000500000000000500000000000500000000000500000000000500000000000500000000000500000000000500000000000500000000000)
 (.leaf 400000000000800000000000600000000000600000000000600000000000600000000000300000000000600000000000600000000000200000000000300000000000200000000000100000000000200000000000300000000000300000000000200000000000200000000000200000000000600000000000500000000000500000000000500000000000400000000000700000000000700000000000600000000000400000000000400000000000700000000000600000000000400000000000700000000000400000000000700000000000800000000000318660000000618660000000418660000000400000000000600000000000900000000000800000000000800000000000300000000000300000000000600000000000500000000000500000000000200000000000600000000000600000000000500000000000200000000000400000000000800000000000800000000000200000000000400000000000200000000000500000000000500000000000500000000000500000000000))
 (.node 1 (.leaf 500000000000500000000000500000000000500000000000500000000000500000000000500000000000500000000000500000000000500000000000500000000000500000000000500000000000500000000000500000000000500000000000900000000000200000000000700000000000600000000000200000000000300000000000200000000000600000000000200000000000200000000000200000000000300000000000400000000000600000000000600000000000600000000000500000000000500000000000500000000000500000000000800000000000400000000000600000000000900000000000900000000000700000000000700000000000100000000000600000000000700000000000400000000000400000000000800000000000400000000000600570000000800000000000800000000000618660000000400000000000900000000000200000000000300000000000300000000000600000000000600000000000600000000000500000000000400000000000)
 (.leaf 200000000000800000000000600000000000500000000000500000000000400000000000800000000000400000000000200000000000200000000000500000000000500000000000500000000000500000000000500000000000500000000000500000000000500000000000500000000000500000000000500000000000500000000000500000000000400000000000202290611987800000000000600000000000600000000000300000000000300000000000200000000000200000000000900000000000600000000000600000000000900000000000300000000000200000000000400000000000300000000000600000000000600000000000800000000000800000000000608020100000500000000000400000000000400000000000400000000000900000000000900000000000401910000000800000000000800000000000400000000000600000000000400000000000100000000000800570000000600000000000400000000000200000000000100000000000600000000000))))))))
 (.node 64 (.node 32 (.node 16 (.node 8 (.node 4 (.node 2 (.node 1 (.leaf 900000000000600000000000600000000000500000000000512400000000800000000000600000000000500000000000500000000000500000000000400000000000200000000000600000000000700000000000200000000000300000000000300000000000900000000000809540000000600000000000500000000000500000000000500000000000500000000000500000000000500000000000500000000000500000000000500000000000500000000000400000000000200000000000500000000000500000000000500000000000500000000000500000000000500000000000500000000000500000000000500000000000500000000000600000000000200000000000900000000000600000000000200000000000300000000000300000000000600000000000200000000000900000000000600000000000200000000000900000000000600000000000600000000000200000000000618260000000218260000000600000000000422170000000200000000000200000000000)
 (.leaf 800000000000200000000000200000000000200000000000800000000000800000000000800000000000500000000000805540000000205540000000700000000000800000000000600000000000600000000000300000000000701910000000400000000000400000000000800000000000800000000000900000000000400000000000800000000000400000000000600000000000400000000000600000000000600000000000300000000000300000000000600000000000300000000000600000000000500000000000500000000000500000000000500000000000200000000000800000000000500000000000400000000000400000000000300000000000300000000000200000000000400000000000200000000000500000000000500000000000400000000000700000000000500000000000500000000000500000000000500000000000500000000000500000000000500000000000500000000000500000000000500000000000200000000000200000000000800000000000))
 (.node 1 (.leaf 500000000000500000000000500000000000500000000000500000000000500000000000500000000000500000000000500000000000500000000000600000000000800000000000600000000000300000000000600000000000600000000000300000000000800000000000800000000000600000000000600000000000400000000000318260000000206960000000601950000000800000000000500000000000400000000000800000000000800000000000800000000000700000000000600000000000700000000000400000000000800000000000400000000000400000000000600000000000400000000000700000000000700550000000200550000000200000000000618660000000818660000000400000000000300000000000900000000000600000000000300000000000500000000000500000000000500000000000500000000000800000000000800000000000600000000000200000000000600000000000500000000000500000000000500000000000100000000000)
 (.leaf 300000000000200000000000200000000000600000000000500000000000500000000000803660100000200000000000500000000000500000000000500000000000500000000000500000000000500000000000500000000000500000000000500000000000500000000000500000000000500000000000500000000000200000000000500000000000500000000000500000000000500000000000500000000000510220000000500000000000500000000000500000000000500000000000500000000000400000000000400000000000200000000000200000000000300000000000200000000000300000000000200000000000200000000000900000000000900000000000900000000000900000000000600000000000206600000000300000000000900000000000900000000000800000000000200000000000800000000000901050000000808210000000800000000000800000000000800000000000600000000000500000000000503590000000100000000000200000000000)))
 (.node 2 (.node 1 (.leaf 200000000000200000000000800000000000900000000000800000000000800000000000600000000000300000000000200000000000200000000000400720000000400000000000400000000000400000000000800000000000600000000000400000000000800000000000800000000000800000000000618660000000400000000000622250000000600000000000500000000000500000000000500000000000500000000000600000000000300000000000500000000000500000000000100000000000100000000000400000000000500000000000500000000000400000000000800000000000203660000000500000000000500000000000500000000000500000000000500000000000500000000000500000000000500000000000800000000000800000000000500000000000500000000000500000000000500000000000500000000000500000000000500000000000500000000000500000000000500000000000500000000000500000000000600000000000300000000000)
 (.leaf 300000000000200000000000600000000000600000000000206600000000600000000000900000000000206230000000222970000000300000000000300000000000600000000000600000000000900000000000800000000000600000000000800000000000900000000000800000000000500000000000500000000000800000000000100000000000800000000000200000000000600000000000100000000000400000000000800000000000400000000000800000000000700000000000800000000000800000000000800000000000800000000000600000000000900000000000200000000000918660000000818660000000400000000000600000000000222250000000600000000000300000000000600000000000500000000000500000000000200000000000600000000000900000000000800000000000500000000000500000000000500000000000500000000000500000000000500000000000400000000000600000000000500000000000800000000000200000000000))
 (.node 1 (.leaf 500000000000402470000000500000000000500000000000500000000000500000000000500000000000500000000000400000000000800000000000700000000000500000000000400000000000700000000000300000000000400000000000200000000000800000000000813420100000513420000000500000000000500000000000500000000000500000000000500000000000500000000000500000000000500000000000400000000000600000000000300000000000300000000000200000000000200000000000900000000000900000000000900000000000800000000000600000000000822390000000600000000000800000000000700000000000800000000000600000000000900000000000800000000000900000000000600000000000800000000000500000000000500000000000200000000000400000000000200000000000900000000000600000000000200000000000800000000000200000000000800000000000700000000000600000000000100000000000)
 (.leaf 400000000000700000000000800000000000200000000000200000000000101220000000202960000000600000000000600000000000500000000000400000000000900000000000600000000000500000000000500000000000500000000000500000000000500000000000417230611973600000000000500000000000300000000000500000000000500000000000300000000000600000000000500000000000500000000000500000000000500000000000500000000000500000000000500000000000500000000000500000000000500000000000500000000000500000000000200000000000500000000000200000000000500000000000600000000000400000000000400000000000200000000000200000000000500000000000500000000000500000000000500000000000500000000000500000000000500000000000500000000000500000000000500000000000400000000000600000000000200000000000300000000000800000000000800000000000600000000000))))
 (.node 4 (.node 2 (.node 1 (.leaf 800000000000600000000000900000000000809260000000611050000000600000000000900000000000800000000000800000000000800000000000400000000000800000000000800000000000500000000000500000000000500000000000512380100000512380000000100000000000400000000000200000000000200000000000600000000000400000000000800000000000700000000000800000000000200000000000800000000000800000000000800000000000200000000000800000000000700000000000900000000000200000000000400000000000800000000000600000000000401220000000600000000000300000000000600000000000500000000000500000000000600000000000600000000000300000000000500000000000500000000000500000000000517230000000500000000000500000000000500000000000500000000000500000000000500000000000500000000000500000000000500000000000500000000000500000000000500000000000)
 (.leaf 500000000000500000000000200000000000800000000000800000000000400000000000400000000000200000000000600000000000700000000000200000000000200000000000200000000000500000000000500000000000500000000000500000000000500000000000400000000000400000000000800000000000300000000000300000000000300000000000600000000000400000000000900000000000600000000000600000000000622150000000600000000000800000000000800000000000800000000000800000000000800000000000800000000000800000000000800000000000800000000000900450000000400000000000800000000000800000000000700000000000113810000000700000000000800000000000700000000000400000000000900000000000800000000000100000000000400000000000100050000000800000000000100000000000100000000000100000000000600000000000400000000000800000000000200000000000600000000000))
 (.node 1 (.leaf 500000000000500000000000500000000000500000000000800000000000500000000000500000000000500000000000500000000000500000000000500000000000500000000000500000000000500000000000500000000000500000000000500000000000200000000000200000000000200000000000200000000000200000000000800000000000800000000000700000000000500000000000500000000000500000000000500000000000500000000000500000000000700000000000300000000000200000000000800000000000900000000000900000000000900000000000600000000000900000000000800000000000600000000000600000000000800000000000800000000000600000000000823080000000700000000000800000000000600000000000800000000000800000000000400000000000600000000000800000000000900000000000900000000000800000000000900000000000400000000000400000000000813810621958200000000000900000000000)
 (.leaf 900000000000600000000000400000000000400000000000200000000000400000000000700000000000400000000000400000000000900000000000400000000000100050000000200000000000400000000000400000000000800000000000300000000000200000000000800000000000600000000000500000000000500000000000500000000000910630100000910630000000900000000000600000000000500000000000500000000000500000000000500000000000500000000000500000000000500000000000100000000000200000000000200000000000200000000000800000000000800000000000700000000000800000000000800000000000400000000000500000000000500000000000500000000000500000000000500000000000500000000000500000000000500000000000500000000000400000000000700000000000200000000000800000000000900000000000800000000000600000000000600000000000800000000000800000000000900000000000)))
 (.node 2 (.node 1 (.leaf 600000000000600000000000800000000000800000000000600000000000800000000000700000000000600000000000600000000000800000000000300000000000600000000000600000000000800000000000800000000000400000000000400000000000400000000000600000000000500000000000500000000000500000000000400000000000800000000000200000000000800000000000800000000000800000000000800000000000800000000000600000000000600000000000800000000000400000000000200000000000800000000000400000000000200000000000100000000000200000000000100000000000200000000000800000000000600000000000500000000000500000000000500000000000300000000000623370622002400000000000500000000000500000000000500000000000500000000000500000000000100000000000200000000000700000000000800000000000800000000000500000000000500000000000500000000000500000000000)
 (.leaf 200000000000500000000000500000000000400000000000600000000000600000000000800000000000800000000000800000000000600000000000900000000000800000000000900000000000800000000000800000000000900000000000600000000000400000000000900000000000800000000000600000000000800000000000400000000000800000000000900000000000400000000000800000000000800000000000800000000000800000000000800000000000800000000000800000000000600000000000400000000000800000000000200000000000600000000000800000000000800000000000600000000000500000000000200000000000600000000000800000000000800000000000900000000000600000000000400000000000200000000000800000000000800000000000800000000000600000000000800000000000300000000000300000000000600000000000500000000000500000000000500000000000500000000000500000000000500000000000))
 (.node 1 (.leaf 500000000000500000000000500000000000500000000000500000000000400000000000200000000000200000000000100000000000200000000000200000000000700000000000300000000000700000000000500000000000500000000000500000000000500000000000500000000000500000000000500000000000500000000000200000000000500000000000500000000000500000000000500000000000500000000000500000000000400000000000100000000000900000000000300000000000800000000000800000000000900000000000600000000000600000000000600000000000900000000000800000000000600000000000800000000000800000000000400000000000400000000000900000000000400000000000600000000000800000000000800000000000700000000000700000000000400000000000800000000000600000000000800000000000800000000000400000000000600000000000600000000000900000000000600000000000400000000000)
 (.leaf 600000000000200000000000700000000000800000000000700000000000200000000000600000000000400000000000800000000000400000000000800000000000400000000000900000000000600000000000800000000000400000000000600050000000200050000000200000000000800000000000700000000000400000000000600000000000600000000000200000000000600000000000500000000000500000000000500000000000800000000000500000000000500000000000500000000000500000000000500000000000400000000000200000000000400000000000300000000000300000000000400000000000800000000000200000000000800000000000300000000000500000000000500000000000500000000000500000000000500000000000500000000000500000000000500000000000500000000000400000000000800000000000200000000000800000000000800000000000600000000000800000000000900000000000600000000000800000000000)))))
 (.node 8 (.node 4 (.node 2 (.node 1 (.leaf 900000000000600000000000800000000000600000000000800000000000900000000000900000000000600000000000400000000000800000000000900000000000600000000000800000000000623180000000400000000000900000000000600000000000800000000000400000000000600000000000600000000000400000000000900000000000500000000000800000000000800000000000400000000000800000000000400000000000400000000000700000000000800000000000200000000000200000000000200000000000200000000000400000000000300000000000217240000000200000000000600000000000500000000000500000000000500000000000500000000000800000000000421230621986823380622015500000000000500000000000500000000000500000000000500000000000500000000000500000000000500000000000500000000000500000000000500000000000500000000000212940100000202130000000200000000000400000000000)
 (.leaf 500000000000500000000000500000000000500000000000400000000000800000000000600000000000400000000000400000000000600000000000900000000000600000000000600000000000900000000000900000000000600000000000800000000000800000000000900000000000800000000000800000000000600000000000800000000000400000000000800000000000400000000000600000000000800000000000700000000000400000000000600000000000800000000000400000000000900000000000800000000000800000000000700000000000800000000000600000000000100000000000800000000000700000000000700000000000800000000000600000000000400000000000800000000000800050000000400050000000400000000000700000000000200000000000800000000000600000000000900000000000500000000000500000000000500000000000500000000000500000000000500000000000500000000000600000000000400000000000))
 (.node 1 (.leaf 200000000000817960611989500000000000500000000000500000000000500000000000500000000000500000000000500000000000500000000000500000000000400000000000200000000000300000000000300000000000200000000000400000000000800000000000600000000000500000000000500000000000500000000000500000000000500000000000500000000000400000000000600000000000700000000000900000000000400000000000600000000000800000000000800000000000600000000000600000000000800000000000800000000000900000000000400000000000700000000000800000000000400000000000600000000000400000000000600000000000400000000000800000000000800000000000400000000000300000000000200000000000200000000000200000000000800000000000400000000000600000000000600000000000500000000000400000000000400000000000800000000000800000000000900000000000600000000000)
 (.leaf 300000000000200000000000423010000000600000000000400000000000800050000000800000000000200000000000200000000000900000000000800000000000700000000000600000000000500000000000500000000000500000000000500000000000500000000000917250621982800000000000600000000000500000000000500000000000500000000000500000000000500000000000500000000000500000000000500000000000500000000000500000000000500000000000200000000000400000000000100000000000500000000000400000000000500000000000500000000000500000000000500000000000500000000000500000000000500000000000500000000000500000000000500000000000500000000000200000000000900000000000400000000000600000000000700000000000900000000000600000000000600000000000900000000000900000000000800000000000700000000000800000000000800000000000700000000000400000000000)))
 (.node 2 (.node 1 (.leaf 400000000000800000000000800000000000800000000000800000000000600000000000400000000000600000000000400000000000800000000000400000000000900000000000600000000000800000000000700000000000400000000000300000000000400000000000600000000000400000000000200000000000600000000000800000000000800000000000800000000000800000000000400000000000800000000000400000000000221550000000600050000000400050000000322890000000400000000000400000000000600000000000800000000000500000000000517250000000500000000000500000000000500000000000500000000000500000000000500000000000500000000000500000000000500000000000500000000000500000000000500000000000500000000000500000000000500000000000500000000000500000000000500000000000500000000000500000000000500000000000500000000000500000000000500000000000500000000000)
 (.leaf 500000000000500000000000500000000000500000000000500000000000500000000000500000000000500000000000500000000000500000000000500000000000400000000000600000000000500000000000400000000000900000000000800000000000500000000000500000000000500000000000500000000000500000000000500000000000500000000000500000000000500000000000500000000000500000000000500000000000600000000000900000000000800000000000400000000000700000000000800000000000900000000000900000000000600000000000700000000000800000000000800000000000800000000000800000000000400000000000400000000000800000000000800000000000800000000000400000000000600000000000600000000000400000000000800000000000600000000000400000000000900000000000800000000000400000000000200000000000300000000000600000000000400000000000600000000000400000000000))
 (.node 1 (.leaf 100000000000900000000000400000000000700000000000400000000000800000000000600000000000800000000000600000000000400310000000800050000000700050000000600000000000800000000000900000000000700000000000300000000000600000000000900000000000800000000000800000000000500000000000500000000000500000000000500000000000500000000000500000000000500000000000500000000000500000000000500000000000500000000000500000000000500000000000500000000000500000000000500000000000500000000000500000000000500000000000500000000000500000000000500000000000500000000000500000000000500000000000500000000000500000000000500000000000200000000000300000000000200000000000800000000000500000000000500000000000500000000000200000000000900000000000500000000000500000000000500000000000500000000000500000000000500000000000)
 (.leaf 500000000000500000000000500000000000500000000000500000000000400000000000600000000000600000000000600000000000700000000000400000000000900000000000800000000000800000000000800000000000800000000000400000000000400000000000400000000000100000000000300000000000600000000000800000000000400000000000800000000000600000000000800000000000600000000000400000000000800000000000900000000000900000000000600000000000800000000000600000000000200000000000800000000000622130000000217950000000200000000000300000000000500000000000500000000000221250000000400000000000800000000000800000000000800000000000800000000000400000000000600000000000813390000000400000000000600310000000800000000000400000000000300000000000600000000000700000000000300000000000300000000000800070000000600000000000800000000000))))
 (.node 4 (.node 2 (.node 1 (.leaf 600000000000800000000000800000000000500000000000500000000000500000000000500000000000500000000000500000000000200000000000500000000000500000000000500000000000500000000000500000000000500000000000500000000000400000000000300000000000500000000000500000000000500000000000500000000000500000000000500000000000500000000000500000000000500000000000500000000000400000000000700000000000400000000000700000000000600000000000900000000000900000000000900000000000900000000000400000000000900000000000400000000000800000000000800000000000400000000000400000000000100000000000600000000000400000000000600000000000700000000000623220000000700000000000100000000000900000000000400000000000600000000000800000000000800000000000600000000000617950000000200000000000500000000000200000000000400000000000)
 (.leaf 400000000000700000000000400000000000800000000000600000000000400000000000900310000000400000000000200000000000600000000000400000000000200000000000200070000000200000000000800000000000800000000000900000000000600000000000500000000000500000000000500000000000500000000000500000000000500000000000200000000000500000000000500000000000200000000000200000000000500000000000500000000000500000000000500000000000500000000000500000000000500000000000500000000000500000000000500000000000500000000000400000000000200000000000800000000000800000000000900000000000800000000000400000000000800000000000700000000000600000000000600000000000600000000000800000000000800000000000400000000000800000000000800000000000900000000000400000000000700000000000700000000000400000000000800000000000400000000000))
 (.node 1 (.leaf 400000000000600000000000700000000000623220000000400000000000800000000000800000000000700000000000900000000000600000000000600000000000300000000000300000000000200000000000600000000000900000000000300000000000400000000000600000000000800000000000800000000000700000000000800000000000805280000000600000000000400000000000600000000000100000000000200000000000300000000000200000000000600070000000400000000000800000000000900000000000800000000000600000000000600000000000500000000000500000000000500000000000500000000000500000000000500000000000500000000000500000000000500000000000500000000000500000000000500000000000500000000000500000000000500000000000500000000000500000000000100000000000218841421936600000000000800000000000600000000000400000000000600000000000900000000000600000000000)
 (.leaf 600000000000900000000000400000000000700000000000800000000000900000000000600000000000400000000000800000000000900000000000400000000000600000000000400000000000800000000000700000000000600000000000700000000000600000000000400000000000623220000000400000000000400000000000300000000000600000000000200000000000300000000000600000000000400000000000600000000000300000000000300000000000500000000000800000000000600000000000700000000000800000000000900000000000900000000000900000000000800000000000400000000000700000000000900000000000900000000000822080000000700000000000600000000000400000000000222860000000600000000000100000000000100070000000200000000000200000000000200000000000600000000000200000000000200000000000200000000000500000000000500000000000500000000000500000000000500000000000)))
 (.node 2 (.node 1 (.leaf 500000000000500000000000500000000000500000000000500000000000500000000000500000000000500000000000500000000000500000000000500000000000500000000000500000000000500000000000100000000000600000000000400000000000600000000000900000000000600000000000400000000000400000000000600000000000700000000000600000000000400000000000900000000000700000000000600000000000400000000000400000000000700000000000100000000000600000000000800000000000400000000000800000000000900000000000900000000000600000000000700000000000700000000000400000000000800000000000600000000000800000000000200000000000200000000000400000000000800000000000800000000000400000000000822080000000600000000000800000000000222860000000400000000000300000000000400000000000200070000000200000000000600000000000600000000000500000000000)
 (.leaf 500000000000500000000000500000000000500000000000500000000000500000000000500000000000500000000000500000000000500000000000500000000000500000000000500000000000500000000000500000000000500000000000400000000000800000000000200000000000400000000000600000000000600000000000600000000000400000000000200000000000100000000000900000000000800000000000800000000000800000000000700000000000400000000000600000000000900000000000800000000000800000000000700000000000900000000000700000000000200000000000600000000000800000000000400000000000800000000000900000000000300000000000600000000000600000000000700000000000400000000000600000000000400000000000600000000000600000000000400000000000400000000000200000000000400000000000800000000000600000000000400000000000200000000000400000000000800000000000))
 (.node 1 (.leaf 200070000000800000000000800000000000600000000000500000000000500000000000500000000000500000000000500000000000500000000000500000000000500000000000500000000000500000000000500000000000500000000000500000000000500000000000500000000000500000000000500000000000500000000000500000000000510230100000500000000000500000000000500000000000500000000000100000000000200000000000600000000000400000000000900000000000600000000000900000000000800000000000400000000000100000000000800000000000600000000000800000000000400000000000400000000000900000000000800000000000400000000000900000000000400000000000700000000000400000000000600000000000400000000000600000000000400000000000200000000000617260000000500000000000400000000000700000000000800000000000700000000000800000000000800000000000700000000000)
 (.leaf 900000000000600000000000900000000000600000000000400000000000200000000000200000000000100000000000300000000000200000000000600000000000800000000000400000000000700000000000600000000000400000000000600000000000200070000000800000000000900000000000600000000000600000000000500000000000500000000000500000000000500000000000500000000000500000000000500000000000500000000000500000000000500000000000700000000000800000000000500000000000500000000000500000000000500000000000500000000000500000000000400000000000800000000000600000000000600000000000900000000000800000000000900000000000100000000000700000000000700000000000800000000000400000000000800000000000600000000000800000000000800000000000700000000000400000000000600000000000800000000000600000000000800000000000500000000000500000000000))))))
 (.node 16 (.node 8 (.node 4 (.node 2 (.node 1 (.leaf 400000000000400000000000200000000000200000000000200000000000800000000000700000000000600000000000600000000000600000000000400000000000200000000000400000000000300000000000200000000000600000000000800000000000800000000000400000000000900000000000200000000000400000000000600000000000800000000000800000000000600000000000800000000000500000000000500000000000600000000000400000000000900000000000800000000000200000000000200000000000500000000000400000000000800000000000500000000000500000000000500000000000500000000000400000000000100000000000200000000000800000000000800000000000600000000000800000000000800000000000822240000000700000000000100000000000800000000000800000000000400000000000800000000000800000000000800000000000600000000000400000000000900000000000400000000000600000000000)
 (.leaf 700000000000800000000000200000000000800000000000800000000000600000000000500000000000700000000000200000000000800000000000600000000000300000000000600000000000600000000000200000000000200000000000200000000000600000000000400000000000800000000000900000000000300000000000200000000000700000000000600070000000400000000000600000000000900000000000900000000000600000000000500000000000500000000000500000000000500000000000500000000000400000000000800000000000800000000000800000000000800000000000800000000000900000000000300000000000900000000000800000000000500000000000400000000000500000000000500000000000500000000000500000000000100000000000800000000000700000000000900000000000700000000000900000000000600000000000704550000000800000000000800000000000900000000000800000000000900000000000))
 (.node 1 (.leaf 800000000000700000000000900000000000800000000000800000000000700000000000900000000000900000000000400000000000800000000000600000000000400000000000300000000000600000000000600000000000500000000000500000000000700000000000700000000000700000000000200000000000800000000000100000000000600000000000300000000000600000000000100000000000100000000000600000000000100000000000200000000000800000000000400000000000800000000000200070000000600000000000400000000000900000000000300000000000200000000000600000000000600000000000500000000000400000000000800000000000600000000000500000000000500000000000800000000000400000000000100000000000400000000000600000000000300000000000500000000000500000000000500000000000500000000000400000000000700000000000500000000000500000000000500000000000500000000000)
 (.leaf 500000000000500000000000500000000000500000000000500000000000500000000000400000000000900000000000800000000000900000000000700000000000300000000000200000000000800000000000700000000000900000000000600000000000800000000000800000000000400000000000400000000000800000000000900000000000800000000000800000000000100000000000200000000000400000000000100000000000400000000000900000000000800000000000600000000000800000000000800000000000800000000000618280000000600000000000400000000000700000000000600000000000600000000000800000000000300000000000300000000000200000000000300000000000200000000000200000000000600000000000600000000000400000000000600000000000600000000000400000000000600000000000200000000000200000000000800000000000800000000000800000000000300000000000600000000000400000000000)))
 (.node 2 (.node 1 (.leaf 100000000000600000000000500000000000500000000000500000000000800000000000500000000000500000000000700000000000800000000000200000000000300000000000200000000000200000000000500000000000500000000000500000000000400000000000500000000000500000000000500000000000500000000000500000000000500000000000400000000000200000000000100000000000200000000000700000000000800000000000400000000000300000000000200000000000200000000000800000000000300000000000900000000000600000000000800000000000400000000000100000000000600000000000200000000000400000000000600000000000600000000000400000000000600000000000800000000000800000000000800000000000800000000000600000000000600000000000400000000000900000000000600000000000800000000000900000000000600000000000400000000000100000000000700000000000600000000000)
 (.leaf 100000000000100000000000300000000000600000000000400000000000600000000000400000000000800000000000800000000000600000000000400000000000200000000000600000000000200000000000200000000000800000000000800000000000600000000000900000000000900000000000900000000000600000000000500000000000500000000000200000000000200000000000600000000000500000000000500000000000500000000000600000000000500000000000500000000000400000000000600000000000600000000000400000000000500000000000500000000000500000000000200000000000600000000000100000000000200000000000800000000000600000000000700000000000800000000000900000000000600000000000400000000000800000000000800000000000200000000000300000000000600000000000817970000000600000000000900000000000400000000000400000000000400000000000800000000000600000000000))
 (.node 1 (.leaf 900000000000600000000000300000000000200000000000600000000000900000000000600000000000400000000000300000000000600000000000100000000000200000000000600000000000600000000000400000000000600000000000200000000000300000000000200000000000400000000000300000000000300000000000600000000000200000000000200000000000600370000000400000000000200000000000600000000000800000000000600000000000300000000000200000000000300000000000600000000000700000000000500000000000500000000000500000000000400000000000800000000000400000000000700000000000400000000000600000000000600000000000500000000000400000000000800000000000400000000000500000000000500000000000500000000000500000000000500000000000500000000000200000000000200000000000800000000000617270611995800170000000900000000000600000000000700000000000)
 (.leaf 800000000000700000000000700000000000700000000000400000000000200000000000100000000000100000000000200000000000200000000000800000000000400000000000800000000000700000000000200000000000200000000000215440621960200000000000600000000000200000000000600000000000400000000000300000000000800000000000300000000000500000000000400000000000200000000000200000000000200000000000200000000000200000000000600000000000600000000000200000000000400000000000603470000000400000000000900000000000800000000000200000000000600000000000200000000000600000000000600000000000800000000000400000000000600000000000500000000000500000000000500000000000500000000000400000000000700000000000600000000000800000000000800000000000800000000000400000000000800000000000900000000000500000000000400000000000400000000000))))
 (.node 4 (.node 2 (.node 1 (.leaf 800000000000700000000000500000000000500000000000500000000000500000000000500000000000500000000000500000000000400000000000200000000000600000000000400000000000800000000000600000000000700000000000700000000000800000000000700000000000800000000000600000000000200000000000200000000000400000000000900000000000600000000000600000000000800000000000400000000000200000000000200000000000600000000000400000000000100000000000817310611977300000000000200000000000200000000000600000000000500000000000500000000000600000000000400000000000100000000000200000000000600000000000900000000000800000000000200000000000800000000000800000000000400000000000600000000000200000000000400000000000200000000000300000000000300000000000500000000000500000000000500000000000800000000000800000000000400000000000)
 (.leaf 600000000000500000000000500000000000500000000000500000000000400000000000200000000000800000000000900000000000600000000000700000000000400000000000800000000000800000000000800000000000800000000000800000000000800000000000900000000000800000000000500000000000500000000000500000000000500000000000400000000000400000000000500000000000500000000000500000000000500000000000500000000000500000000000500000000000500000000000500000000000500000000000500000000000500000000000200000000000400000000000800000000000600170000000700000000000600000000000900000000000800000000000400000000000100000000000200000000000600000000000400000000000600000000000400000000000800000000000700000000000800000000000200000000000200000000000223170000000200000000000600000000000800000000000400000000000800000000000))
 (.node 1 (.leaf 600000000000800000000000800000000000300000000000600000000000500000000000800000000000800000000000700000000000100000000000600000000000200000000000200000000000600000000000200000000000600000000000200000000000400000000000800000000000100000000000800000000000600300000000400300000000800000000000600000000000600000000000400000000000300000000000300000000000200000000000400000000000900000000000700000000000700000000000300000000000600000000000500000000000500000000000500000000000500000000000500000000000400000000000400000000000900000000000800000000000600000000000700000000000800000000000600000000000300000000000300000000000200000000000100000000000100000000000100000000000600000000000500000000000500000000000500000000000400000000000400000000000400000000000500000000000500000000000)
 (.leaf 500000000000500000000000500000000000500000000000500000000000500000000000500000000000200000000000100000000000100000000000600000000000200000000000200000000000200000000000800000000000800000000000900000000000900000000000100000000000900000000000600000000000200000000000400000000000800000000000300000000000200000000000600000000000200000000000800000000000400000000000800000000000200000000000200000000000300000000000300000000000300000000000200000000000200000000000600000000000600000000000100000000000300000000000600300000000800000000000600000000000900000000000900000000000900000000000300000000000200000000000500000000000500000000000500000000000400000000000700000000000900000000000607080000000500000000000600000000000400000000000300000000000400000000000900000000000600000000000)))
 (.node 2 (.node 1 (.leaf 400000000000600000000000600000000000400000000000800000000000800000000000800000000000800000000000900000000000800000000000800000000000500000000000500000000000400000000000800000000000400000000000400000000000500000000000500000000000500000000000500000000000500000000000500000000000500000000000100000000000100000000000800000000000600000000000600000000000600000000000800000000000800000000000800000000000400000000000600000000000400000000000700000000000800000000000400000000000100000000000800000000000600000000000600000000000217280000000200000000000800000000000900000000000600000000000800000000000600000000000400000000000700000000000200000000000700000000000700000000000600000000000400000000000600000000000200000000000600000000000800300000000700000000000900000000000800000000000)
 (.leaf 200000000000300000000000300000000000600000000000200000000000500000000000500000000000400000000000900000000000800000000000907080000000307080000000500000000000500000000000400000000000600000000000200000000000100000000000700000000000100000000000100000000000600000000000800000000000100000000000600000000000800000000000600000000000400000000000300000000000200000000000400000000000100000000000400000000000400000000000300000000000600000000000500000000000500000000000100000000000300000000000500000000000500000000000500000000000500000000000500000000000500000000000500000000000400000000000300000000000300000000000200000000000200000000000400000000000300000000000900000000000600000000000400000000000600000000000800000000000800000000000400000000000400000000000600000000000200000000000))
 (.node 1 (.leaf 800000000000800000000000801450000000700000000000400000000000600000000000200000000000600000000000600000000000400000000000100000000000400000000000600000000000400000000000400000000000800000000000600000000000200000000000600000000000400000000000600000000000400000000000400000000000400000000000700000000000200000000000800000000000800000000000300000000000300000000000500000000000500000000000500000000000800000000000200000000000800000000000700000000000700000000000200000000000200000000000500000000000400000000000900000000000400000000000600000000000400000000000600000000000400000000000600000000000400000000000400000000000800000000000800000000000600000000000800000000000400000000000800000000000700000000000400000000000600000000000500000000000500000000000500000000000500000000000)
 (.leaf 500000000000500000000000500000000000500000000000500000000000500000000000400000000000401040000000600000000000600000000000900000000000900000000000800000000000700000000000600000000000600000000000400000000000200000000000400000000000300000000000600000000000401750000000802530000000700000000000600000000000200000000000600000000000600000000000400000000000200000000000200000000000600000000000400000000000600000000000600000000000400000000000600000000000800000000000400000000000400000000000600000000000400000000000600000000000400000000000400000000000100000000000800000000000400000000000200000000000600000000000700000000000800000000000400000000000200000000000400000000000600000000000400000000000600000000000400000000000600000000000700000000000700000000000400000000000400000000000)))))
 (.node 8 (.node 4 (.node 2 (.node 1 (.leaf 600000000000400000000000500000000000500000000000500000000000400000000000600000000000600000000000600000000000600000000000300000000000600000000000111130100000400000000000400000000000800000000000300000000000200000000000200000000000419090000000417290000000417300000000700000000000600000000000800000000000600000000000500000000000900000000000800000000000800000000000400000000000800000000000800000000000700000000000600000000000400000000000200000000000100000000000400000000000400000000000800000000000400000000000300000000000107540000000307540621959200000000000500000000000500000000000100000000000400000000000800000000000700000000000600000000000400000000000400000000000800000000000800000000000400000000000600000000000400000000000100000000000600000000000900000000000400000000000)
 (.leaf 300000000000600000000000900000000000400000000000700000000000800000000000600000000000200000000000500000000000500000000000500000000000500000000000500000000000500000000000500000000000500000000000500000000000500000000000100000000000100000000000900000000000800000000000200000000000100000000000800000000000300000000000800000000000800000000000800000000000800000000000600000000000800000000000600000000000400000000000100000000000600000000000600000000000300000000000219160000000219170000000219170000000400000000000600000000000800000000000500000000000500000000000200000000000800000000000400000000000800000000000400000000000600000000000800000000000300000000000600000000000200000000000400000000000200000000000400000000000700000000000800000000000300000000000300000000000313770611960))
 (.node 1 (.leaf 600000000000400000000000600000000000500000000000400000000000600000000000500000000000500000000000500000000000300000000000400000000000900000000000800000000000800000000000900000000000800000000000800000000000200000000000100000000000300000000000200000000000200000000000800000000000900000000000600000000000700000000000400000000000200000000000400000000000900000000000600000000000900000000000500000000000500000000000500000000000400000000000000000000000600000000000400000000000600000000000200000000000600000000000600000000000600000000000400000000000400000000000600000000000200000000000601010000000401010000000803710000000600000000000800000000000800000000000800000000000800000000000800000000000800000000000600000000000500000000000200000000000400000000000600000000000800000000000)
 (.leaf 212420000000200000000000200000000000400000000000700000000000700000000000700000000000600000000000300000000000600000000000600000000000600000000000400000000000400000000000600000000000500000000000500000000000500000000000500000000000500000000000500000000000400000000000800000000000800000000000800000000000800000000000400000000000400000000000600000000000400000000000400000000000200000000000900000000000800000000000600000000000600000000000400000000000400000000000100000000000100000000000200000000000900000000000300000000000600000000000400000000000518290611990500000000000500000000000500000000000500000000000500000000000500000000000500000000000400000000000000000000000000000000000000000000000600000000000200000000000200000000000300000000000300000000000400000000000800000000000)))
 (.node 2 (.node 1 (.leaf 800000000000300000000000300000000000219120000000100000000000419180000000400000000000401100000000100000000000700000000000700000000000900000000000800000000000600000000000600000000000500000000000100000000000400000000000600000000000800000000000900000000000600000000000400000000000200000000000200000000000200000000000200000000000300000000000200000000000600000000000600000000000700000000000800000000000700000000000600000000000600000000000500000000000500000000000500000000000500000000000500000000000500000000000500000000000400000000000800000000000400000000000700000000000200000000000400000000000400000000000400000000000200000000000800000000000800000000000600000000000400000000000600000000000200000000000400000000000800000000000900000000000200000000000600000000000700000000000)
 (.leaf 500000000000500000000000500000000000500000000000500000000000500000000000500000000000500000000000500000000000500000000000400000000000200000000000000000000000600000000000800000000000600000000000200000000000300000000000400000000000100000000000700000000000200000000000300000000000600000000000819110000000419130000000700000000000800000000000601100000000400000000000600000000000600000000000400000000000600000000000800000000000600000000000600000000000900000000000800000000000600000000000400000000000300000000000500000000000700000000000800000000000200000000000500000000000500000000000800000000000800000000000800000000000700000000000400000000000400000000000700000000000600000000000600000000000400000000000800000000000800000000000800000000000600000000000800000000000800000000000))
 (.node 1 (.leaf 600000000000800000000000400000000000100000000000200000000000900000000000600000000000800000000000700000000000700000000000700000000000700000000000200000000000300000000000900000000000800000000000400000000000100000000000800000000000600000000000500000000000500000000000500000000000500000000000500000000000500000000000500000000000500000000000500000000000500000000000400000000000000000000000000000000000700000000000300000000000600000000000100000000000400000000000419130000000400000000000415180621966800000000000713990000000600000000000400000000000400000000000400000000000100000000000600000000000600000000000600000000000600000000000800000000000400000000000600000000000600000000000300000000000800000000000800000000000900000000000500000000000400000000000700000000000800000000000)
 (.leaf 600000000000500000000000800000000000400000000000800000000000700000000000800000000000800000000000900000000000900000000000800000000000800000000000800000000000400000000000800000000000200000000000200000000000900000000000900000000000800000000000400000000000900000000000700000000000800000000000900000000000400000000000200000000000200000000000400000000000200000000000200000000000800000000000600000000000200000000000400000000000200000000000600000000000400000000000200000000000200000000000500000000000500000000000500000000000500000000000500000000000500000000000500000000000500000000000500000000000500000000000500000000000400000000000000000000000800000000000600000000000800000000000300000000000600000000000300000000000300000000000600000000000600000000000400000000000600000000000))))
 (.node 4 (.node 2 (.node 1 (.leaf 200000000000200000000000200000000000400000000000800000000000700000000000200000000000400000000000400000000000700000000000800000000000800000000000500000000000505950000000400000000000600000000000600000000000400000000000400000000000700000000000300000000000200000000000600000000000200000000000200000000000600000000000500000000000500000000000500000000000800000000000800000000000700000000000800000000000100000000000200000000000600000000000500000000000500000000000400000000000400000000000800000000000400000000000600000000000800000000000600000000000400000000000400000000000800000000000600000000000400000000000800000000000200000000000800000000000700000000000900000000000800000000000700000000000900000000000900000000000600000000000100000000000400000000000200000000000400000000000)
 (.leaf 400000000000600000000000700000000000200000000000500000000000500000000000500000000000500000000000500000000000000000000000400000000000200000000000000000000000200000000000000000000000900000000000200000000000200000000000600000000000600000000000400000000000100000000000600000000000300000000000404810000000415100621981800000000000514950000000514950621958500000000000500000000000507010100000400000000000200000000000200000000000200000000000300000000000600000000000600000000000800000000000900000000000900000000000900000000000400000000000700000000000600000000000600000000000800000000000900000000000200000000000200000000000600000000000500000000000400000000000400000000000100000000000800000000000600000000000500000000000800000000000800000000000400000000000200000000000600000000000))
 (.node 1 (.leaf 400000000000600000000000800000000000600000000000400000000000200000000000400000000000400000000000800000000000700000000000400000000000900000000000600000000000600000000000600000000000600000000000300000000000200000000000600000000000200000000000700000000000200000000000100000000000400000000000700000000000600000000000800000000000300000000000900000000000600000000000800000000000800000000000500000000000500000000000500000000000500000000000500000000000500000000000400000000000200000000000400000000000200000000000200000000000600000000000600000000000300000000000400000000000200000000000200000000000800000000000818390000000400000000000400000000000621310621971421320621975500000000000500000000000500000000000500000000000500000000000400000000000200000000000200000000000800000000000)
 (.leaf 200000000000200000000000600000000000800000000000800000000000800000000000800000000000600000000000800000000000900000000000300000000000600000000000600000000000400000000000600000000000500000000000200000000000100000000000500000000000400000000000700000000000800000000000200000000000600000000000800000000000700000000000800000000000600000000000400000000000400000000000400000000000400000000000800000000000100000000000800000000000800000000000800000000000800000000000400000000000300000000000300000000000300000000000600000000000200000000000100000000000200000000000200000000000200000000000200000000000200000000000400000000000200000000000900000000000700000000000600000000000600000000000500000000000500000000000400000000000000000000000200000000000300000000000600000000000400000000000)))
 (.node 2 (.node 1 (.leaf 200000000000900000000000600000000000802540000000400000000000700000000000713680621928513680000000521320000000521320000000500000000000100000000000600000000000200000000000200000000000800000000000800000000000900000000000600000000000700000000000600000000000600000000000300000000000400000000000200000000000500000000000400000000000700000000000800000000000800000000000600000000000400000000000800000000000800000000000100000000000800000000000600000000000900000000000800000000000700000000000800000000000900000000000800000000000700000000000400000000000200000000000200000000000200000000000600000000000200000000000200000000000400000000000400000000000100000000000400000000000200000000000400000000000600000000000900000000000400000000000800000000000500000000000800000000000400000000000)
 (.leaf 800000000000000000000000800000000000800000000000200000000000600000000000600000000000600000000000400000000000300000000000400000000000800000000000800000000000800000000000800000000000700000000000800000000000800000000000400000000000500000000000500000000000400000000000100000000000300000000000600000000000800000000000800000000000800000000000700000000000600000000000400000000000600000000000300000000000213580611901511960000000500000000000600000000000200000000000300000000000400000000000500000000000400000000000200000000000200000000000400000000000800000000000400000000000300000000000600000000000800000000000600000000000800000000000600000000000800000000000600000000000400000000000200000000000600000000000600000000000200000000000400000000000200000000000200000000000))
 (.node 1 (.leaf 600000000000400000000000400000000000800000000000900000000000600000000000400000000000800000000000500000000000500000000000500000000000400000000000000000000000710790100000010790000000000000000000000000000000000000000000200000000000600000000000900000000000900000000000600000000000600000000000400000000000721330000000200000000000621340000000400000000000800000000000400000000000600000000000600000000000400000000000500000000000400000000000400000000000100000000000400000000000700000000000600000000000800000000000400000000000600000000000800000000000800000000000600000000000300000000000500000000000511960000000500000000000600000000000900000000000500000000000400000000000100000000000100000000000100000000000100000000000200000000000100000000000600000000000900000000000600000000000)
 (.leaf 800000000000600000000000800000000000900000000000800000000000800000000000400000000000600000000000600000000000200000000000200000000000600000000000400000000000200000000000800000000000400000000000200000000000800000000000100000000000900000000000900000000000800000000000700000000000200000000000614070611975500000000000500000000000500000000000400000000000000000000000000000000000800000000000600000000000300000000000600000000000600000000000400000000000621330000000200000000000221350000000200000000000700000000000100000000000800000000000900000000000800000000000900000000000800000000000500000000000500000000000500000000000400000000000800000000000600000000000100000000000200000000000400000000000400000000000800000000000900000000000900000000000900000000000600000000000500000000000)))))))
 (.node 32 (.node 16 (.node 8 (.node 4 (.node 2 (.node 1 (.leaf 600000000000500000000000500000000000500000000000400000000000100000000000400000000000300000000000200000000000200000000000300000000000600000000000600000000000400000000000200000000000200000000000600000000000800000000000400000000000800000000000900000000000900000000000800000000000800000000000200000000000600000000000100000000000600000000000400000000000400000000000100000000000200000000000200000000000200000000000200000000000800000000000300000000000200000000000600000000000600000000000500000000000400000000000000000000000000000000000100000000000200000000000800000000000600000000000300000000000600000000000300000000000300000000000400000000000400000000000600000000000421370000000121370000000200000000000400000000000500000000000500000000000400000000000300000000000600000000000)
 (.leaf 400000000000600000000000600000000000400000000000800000000000900000000000900000000000800000000000800000000000200000000000500000000000500000000000500000000000500000000000500000000000400000000000400000000000600000000000300000000000200000000000100000000000700000000000200000000000800000000000200000000000800000000000200000000000200000000000100000000000400000000000300000000000600000000000800000000000800000000000800000000000800000000000900000000000600000000000400000000000800000000000200000000000100000000000200000000000300000000000400000000000600000000000800000000000600000000000600000000000500000000000400000000000000000000000000000000000200000000000200000000000200000000000600000000000300000000000300000000000300000000000300000000000400000000000100000000000200000000000))
 (.node 1 (.leaf 100000000000200000000000400000000000800000000000200000000000421370000000400000000000500000000000500000000000600000000000400000000000200000000000600000000000400000000000200000000000400000000000800000000000400000000000400000000000200000000000200000000000200000000000100000000000800000000000800000000000800000000000800000000000300000000000600000000000500000000000500000000000400000000000400000000000400000000000300000000000200000000000800000000000600000000000600000000000300000000000100000000000400000000000200000000000400000000000600000000000200000000000200000000000200000000000600000000000300000000000600000000000600000000000200000000000200000000000100000000000300000000000100000000000400000000000100000000000200000000000400000000000200000000000200000000000900000000000)
 (.leaf 800000000000200000000000900000000000900000000000900000000000500000000000400000000000000000000000000000000000000000000000000000000000000000000000300000000000600000000000200000000000600000000000200000000000400000000000200000000000400000000000200000000000800000000000600000000000400000000000800000000000300000000000400000000000600000000000400000000000300000000000200000000000200000000000200000000000418000000000618000000000500000000000500000000000400000000000400000000000700000000000400000000000700000000000400000000000600000000000900000000000900000000000800000000000600000000000400000000000200000000000600000000000200000000000600000000000400000000000400000000000300000000000600000000000400000000000400000000000200000000000700000000000400000000000200000000000200000000000)))
 (.node 2 (.node 1 (.leaf 600000000000200000000000200000000000400000000000800000000000300000000000800000000000500000000000500000000000400000000000200000000000200000000000200000000000400000000000800000000000600000000000304800000000200000000000200000000000200000000000600000000000400000000000200000000000400000000000900000000000900000000000400000000000400000000000200000000000600000000000400000000000400000000000600000000000200000000000400000000000400000000000618000621985500000000000500000000000200000000000100000000000400000000000200000000000200000000000400000000000300000000000600000000000200000000000600000000000600000000000200000000000400000000000200000000000600000000000600000000000200000000000200000000000400000000000400000000000200000000000100000000000200000000000300000000000200000000000)
 (.leaf 200000000000100000000000400000000000800000000000400000000000618010000000500000000000500000000000300000000000200000000000600000000000200000000000200000000000400000000000100000000000200000000000115650000000215650000000800000000000800000000000800000000000400000000000400000000000900000000000500000000000500000000000400000000000100000000000100000000000100000000000700000000000700000000000400000000000700000000000200000000000800000000000400000000000400000000000600000000000300000000000300000000000614550000000800000000000200000000000100000000000200000000000200000000000400000000000200000000000200000000000200000000000800000000000800000000000700000000000200000000000200000000000600000000000200000000000200000000000600000000000600000000000200000000000600000000000600000000000))
 (.node 1 (.leaf 400000000000400000000000200000000000100000000000400000000000100000000000400000000000600000000000500000000000400000000000700000000000700000000000200000000000300000000000200000000000200000000000300000000000300000000000300000000000400000000000200000000000700000000000900000000000800000000000200000000000400000000000600000000000500000000000500000000000100000000000200000000000200000000000400000000000200000000000100000000000300000000000400000000000400000000000800000000000413840621985300000000000400000000000200000000000400000000000600000000000200000000000200000000000600000000000200000000000600000000000600000000000600000000000400000000000200000000000400000000000400000000000700000000000200000000000400000000000200000000000400000000000400000000000100000000000400000000000)
 (.leaf 100000000000400000000000900000000000600000000000400000000000200000000000900000000000200000000000300000000000600000000000200000000000122590000000400000000000700000000000700000000000700000000000400000000000300000000000200000000000200000000000500000000000507400000000500000000000800000000000800000000000200000000000200000000000400000000000400000000000217320611997613840000000600000000000400000000000200000000000600000000000600000000000600000000000200000000000200000000000200000000000200000000000400000000000200000000000600000000000600000000000200000000000600000000000600000000000800000000000300000000000200000000000400000000000800000000000200000000000200000000000100000000000200000000000100000000000300000000000600000000000500000000000400000000000800000000000600000000000))))
 (.node 4 (.node 2 (.node 1 (.leaf 600000000000600000000000200000000000400000000000400000000000400000000000100000000000100000000000100000000000400000000000600000000000400000000000800000000000400000000000800000000000800000000000700000000000400000000000400000000000800000000000800000000000700000000000221410612002400000000000900000000000900000000000600000000000500000000000400000000000600000000000900000000000800000000000800000000000400000000000300000000000400000000000300000000000200000000000100000000000900000000000800000000000600000000000400000000000600000000000400000000000200000000000100000000000600000000000400000000000100000000000200000000000400000000000600000000000500000000000500000000000500000000000400000000000800000000000600000000000400000000000600000000000800000000000600000000000200000000000)
 (.leaf 600000000000400000000000700000000000600000000000300000000000600000000000412270100000800000000000700000000000100000000000800000000000400000000000800000000000400000000000100000000000300000000000300000000000600000000000400000000000200000000000800000000000200000000000400000000000200000000000200000000000800000000000900000000000300000000000200000000000200000000000800000000000700000000000200000000000800000000000300000000000600000000000300000000000200000000000200000000000200000000000400000000000600000000000900000000000800000000000800000000000900000000000600000000000400000000000600000000000400000000000800000000000600000000000100000000000100000000000400000000000400000000000500000000000500000000000700000000000600000000000300000000000600000000000800000000000802450000000))
 (.node 1 (.leaf 600000000000600000000000400000000000300000000000400000000000800000000000700000000000600000000000600000000000800000000000200000000000500000000000400000000000800000000000200000000000100000000000600000000000400000000000600000000000400000000000800000000000300000000000200000000000500000000000300000000000600000000000400000000000700000000000100000000000800000000000900000000000800000000000300000000000200000000000600000000000200000000000200000000000200000000000200000000000200000000000300000000000200000000000100000000000200000000000600000000000200000000000800000000000800000000000600000000000400000000000800000000000400000000000300000000000100000000000400000000000200000000000700000000000300000000000800000000000700000000000500000000000415400000000700000000000300000000000)
 (.leaf 800000000000800000000000600000000000700000000000600000000000600000000000100000000000600000000000400000000000700000000000400000000000900000000000400000000000600000000000200000000000500000000000500000000000400000000000400000000000800000000000800000000000800000000000700000000000600000000000400000000000400000000000600000000000300000000000500000000000400000000000400000000000200000000000300000000000200000000000400000000000600000000000300000000000600000000000600000000000100000000000600000000000200000000000400000000000400000000000600000000000400000000000600000000000400000000000900000000000400000000000800000000000300000000000300000000000400000000000700000000000700000000000800000000000400000000000600000000000500000000000500000000000400000000000200000000000600000000000)))
 (.node 2 (.node 1 (.leaf 100000000000600000000000800000000000600000000000800000000000600000000000400000000000200000000000100000000000800000000000200000000000900000000000800000000000800000000000600000000000500000000000400000000000400000000000200000000000100000000000600000000000400000000000200000000000100000000000800000000000900000000000800000000000300000000000600000000000500000000000600000000000400000000000400000000000800000000000600000000000200000000000200000000000200000000000400000000000600000000000600000000000300000000000400000000000600000000000400000000000800000000000200000000000300000000000200000000000400000000000700000000000800000000000800000000000200000000000900000000000800000000000700000000000900000000000600000000000500000000000500000000000400000000000624280000000)
 (.leaf 600000000000600000000000200000000000600000000000600000000000400000000000400000000000700000000000200000000000200000000000600000000000500000000000100000000000800000000000400000000000300000000000300000000000200000000000800000000000200000000000200000000000100000000000600000000000200000000000600000000000500000000000400000000000400000000000800000000000800000000000400000000000600000000000200000000000200000000000200000000000500000000000500000000000200000000000800000000000600000000000400000000000600000000000400000000000300000000000200000000000400000000000400000000000700000000000800000000000400000000000200000000000800000000000118950611987600000000000500000000000500000000000400000000000600000000000200000000000600000000000400000000000614990611936600000000000600000000000))
 (.node 1 (.leaf 200000000000200000000000200000000000400000000000100000000000200000000000300000000000600000000000500000000000800000000000800000000000700000000000200000000000200000000000200000000000600000000000600000000000600000000000200000000000500000000000500000000000500000000000700000000000800000000000400000000000400000000000200000000000600000000000400000000000800000000000300000000000600000000000200000000000500000000000500000000000400000000000600000000000800000000000300000000000900000000000800000000000800000000000800000000000200000000000300000000000200000000000400000000000800000000000800000000000400000000000200000000000511840100000500000000000400000000000600000000000400000000000800000000000800000000000300000000000600000000000400000000000117780000000400000000000300000000000)
 (.leaf 500000000000700000000000700000000000200000000000300000000000600000000000200000000000300000000000200000000000200000000000500000000000500000000000400000000000800000000000700000000000400000000000600000000000900000000000800000000000700000000000800000000000200000000000600000000000500000000000500000000000500000000000400000000000200000000000200000000000800000000000000000000000200000000000800000000000900000000000600000000000200000000000200000000000200000000000400000000000100000000000200000000000200000000000200000000000200000000000200000000000100000000000100000000000700000000000800000000000400000000000800000000000200000000000511840000000500000000000200000000000400000000000800000000000600000000000400000000000200000000000300000000000300000000000900000000000800000000000)))))
 (.node 8 (.node 4 (.node 2 (.node 1 (.leaf 600000000000600000000000400000000000600000000000501690000000500000000000500000000000800000000000200000000000800000000000200000000000600000000000400000000000400000000000300000000000500000000000400000000000300000000000200000000000200000000000300000000000300000000000200000000000600000000000600000000000400000000000500000000000500000000000400000000000200000000000400000000000300000000000200000000000100000000000400000000000400000000000400000000000700000000000600000000000500000000000500000000000400000000000600000000000800000000000600000000000400000000000200000000000200000000000600000000000800000000000600000000000400000000000800000000000200000000000800000000000700000000000600000000000500400000000400000000000500000000000700000000000500000000000600000000000500000000000)
 (.leaf 500000000000500000000000400000000000800000000000200000000000500000000000500000000000500000000000500000000000500000000000500000000000400000000000600000000000500000000000500000000000800000000000400000000000411340000000400000000000400000000000100000000000200000000000800000000000800000000000700000000000613590000000400000000000300000000000800000000000600000000000400000000000600000000000200000000000600000000000600000000000600000000000500000000000500000000000400000000000900000000000900000000000508360000000500000000000500000000000500000000000600000000000500000000000500000000000500000000000500000000000500000000000500000000000500000000000500000000000500000000000500000000000400000000000100000000000200000000000500000000000500000000000500000000000500000000000500000000000))
 (.node 1 (.leaf 600000000000500000000000500000000000400000000000600000000000400000000000400000000000400000000000814610000000700000000000913590000000800000000000500000000000400000000000300000000000600000000000400000000000600000000000200000000000200000000000900000000000600000000000500000000000500000000000500000000000500000000000500000000000500000000000500000000000500000000000500000000000500000000000500000000000200000000000500000000000500000000000500000000000500000000000500000000000500000000000500000000000500000000000400000000000100000000000800000000000400000000000200000000000809560000000600000000000500000000000500000000000500000000000400000000000700000000000200000000000300000000000600000000000600000000000400000000000600000000000600000000000200000000000300000000000500000000000)
 (.leaf 500000000000500000000000500000000000500000000000500000000000500000000000500000000000500000000000500000000000201580000000400000000000400000000000814140000000500000000000500000000000500000000000500000000000500000000000500000000000600000000000600000000000400000000000600000000000400000000000600000000000500000000000500000000000500000000000500000000000400000000000800000000000400000000000400000000000407410000000821420611968321430000000800000000000500000000000500000000000500000000000500000000000400000000000400000000000814330611957214330000000800000000000300000000000600000000000400000000000600000000000600000000000600000000000500000000000500000000000500000000000400000000000800000000000800000000000700000000000400000000000700000000000221430621958600000000000500000000000)))
 (.node 2 (.node 1 (.leaf 500000000000500000000000400000000000400000000000200000000000200000000000600000000000300000000000200000000000200000000000600000000000900000000000900000000000900000000000600000000000500000000000500000000000400000000000800000000000800000000000800000000000700000000000800000000000700000000000800000000000714210611979400000000000500000000000500000000000500000000000518410000000500000000000500000000000500000000000500000000000412190100000600000000000200000000000600000000000600000000000000000000000800000000000800000000000800000000000900000000000800000000000600000000000500000000000500000000000400000000000400000000000700000000000700000000000800000000000700000000000200000000000410190000000600000000000200000000000100000000000600000000000500000000000400000000000800000000000)
 (.leaf 400000000000200000000000600000000000600000000000600000000000600000000000200000000000400000000000100000000000800000000000800000000000200000000000200000000000300000000000200000000000200000000000600000000000500000000000500000000000200000000000400000000000200000000000100000000000200000000000600000000000400000000000315520621983300000000000200000000000500000000000500000000000500000000000500000000000500000000000807020000000507020000000500000000000500000000000500000000000500000000000200000000000423270000000900000000000821440000000600000000000600000000000200000000000600000000000000000000000100000000000300000000000600000000000200000000000500000000000500000000000500000000000500000000000500000000000105940000000500000000000400000000000600000000000500000000000800000000000))
 (.node 1 (.leaf 500000000000200000000000500000000000400000000000100000000000800000000000900000000000600000000000000000000000000000000000500000000000500000000000500000000000500000000000500000000000500000000000500000000000500000000000500000000000500000000000500000000000500000000000500000000000500000000000200000000000800000000000200000000000500000000000421530000000600000000000600000000000601630000000600000000000600000000000300000000000200000000000500000000000500000000000500000000000500000000000500000000000500000000000500000000000500000000000200000000000817340000000200000000000600000000000500000000000500000000000411500100000611500000000600000000000801630000000600000000000300000000000200000000000500000000000500000000000500000000000500000000000500000000000500000000000500000000000)
 (.leaf 117340611975400000000000600000000000418320000000800000000000600000000000600000000000400000000000600000000000500000000000500000000000500000000000500000000000500000000000500000000000500000000000500000000000500000000000400000000000500000000000500000000000421930000000302550000000600000000000600000000000600000000000800000000000500000000000500000000000200000000000500000000000500000000000500000000000500000000000500000000000500000000000500000000000500000000000500000000000100000000000500000000000500000000000421930000000107920100000602550000000800000000000800000000000600000000000900000000000800000000000900000000000600000000000500000000000500000000000400000000000500000000000800000000000500000000000500000000000600000000000500000000000500000000000500000000000500000000000))))
 (.node 4 (.node 2 (.node 1 (.leaf 500000000000500000000000400000000000300000000000200000000000300000000000800000000000800000000000400000000000300000000000300000000000600000000000421450621981800000000000621460000000400000000000500000000000400000000000600000000000500000000000500000000000500000000000500000000000400000000000400000000000600000000000200000000000300000000000200000000000600000000000600000000000500000000000500000000000515700621990317350621966221460621982200000000000700000000000500000000000400000000000800000000000600000000000500000000000500000000000500000000000500000000000421470000000221470621976100000000000200000000000600000000000600000000000500000000000500000000000500000000000422670611974500000000000500000000000500000000000400000000000600000000000500000000000500000000000500000000000)
 (.leaf 400000000000800000000000000000000000200000000000800000000000600000000000500000000000500000000000500000000000622670000000500000000000500000000000500000000000500000000000509780100000300000000000600000000000500000000000500000000000500000000000500000000000500000000000500000000000410070000000300000000000000000000000300000000000600000000000500000000000500000000000500000000000500000000000500000000000512120100000221481421976121491421951309780000000506920000000500000000000500000000000500000000000500000000000500000000000400000000000600000000000200000000000600000000000600000000000007480100000300000000000600000000000500000000000500000000000221501421959312120000000600000000000500000000000500000000000500000000000500000000000400000000000600000000000600000000000200000000000))
 (.node 1 (.leaf 500000000000504010000000304490000000206200000000200000000000500000000000500000000000500000000000400000000000600000000000600000000000203360000000201620000000600000000000500000000000500000000000504010000000204011421975104490000000200000000000500000000000500000000000500000000000500000000000400000000000800000000000700000000000700000000000600000000000600000000000500000000000200000000000200000000000200000000000300000000000500000000000500000000000504380100000504380000000400000000000200760000000600760000000300000000000600000000000000000000000600000000000500000000000500000000000600000000000500000000000500000000000504380000000510460100000510460000000600000000000800760000000600000000000500000000000500000000000500000000000500000000000500000000000500000000000400000000000)
 (.leaf 600000000000404440000000600000000000000000000000000000000000600000000000600000000000500000000000500000000000500000000000500000000000500000000000500000000000400000000000000000000000200000000000600000000000000000000000000000000000200000000000600000000000400000000000500000000000500000000000500000000000100000000000000000000000200000000000800000000000700000000000500000000000500000000000500000000000500000000000500000000000400000000000601300000000600000000000200000000000600000000000500000000000500000000000500000000000500000000000500000000000500000000000400000000000301300000000201330000000801300000000200000000000603330000000500000000000500000000000500000000000500000000000500000000000500000000000500000000000500000000000400000000000201330000000600000000000500000000000)))
 (.node 2 (.node 1 (.leaf 500000000000500000000000500000000000500000000000500000000000500000000000500000000000400000000000500000000000500000000000500000000000500000000000600000000000100000000000600000000000200000000000600000000000500000000000500000000000500000000000500000000000500000000000500000000000600000000000400000000000600000000000500000000000500000000000500000000000500000000000500000000000500000000000500000000000500000000000500000000000500000000000400000000000500000000000500000000000500000000000500000000000500000000000500000000000500000000000500000000000500000000000500000000000500000000000500000000000500000000000900000000000900000000000208290000000200000000000600000000000500000000000500000000000500000000000500000000000500000000000500000000000500000000000500000000000500000000000)
 (.leaf 500000000000500000000000500000000000500000000000500000000000500000000000500000000000500000000000500000000000500000000000500000000000500000000000500000000000500000000000500000000000500000000000500000000000500000000000500000000000500000000000500000000000500000000000600000000000500000000000500000000000500000000000500000000000500000000000500000000000500000000000500000000000500000000000500000000000500000000000608900000000500000000000500000000000500000000000500000000000500000000000500000000000500000000000908900000000908900000000800000000000602260000000500000000000500000000000500000000000500000000000500000000000500000000000500000000000500000000000500000000000500000000000500000000000500000000000500000000000402260000000202260000000500000000000600000000000500000000000))
 (.node 1 (.leaf 500000000000500000000000500000000000500000000000500000000000500000000000500000000000500000000000500000000000500000000000500000000000500000000000500000000000500000000000500000000000500000000000500000000000500000000000900010000000500000000000500000000000500000000000500000000000500000000000500000000000500000000000600000000000400000000000400000000000600000000000400000000000600000000000600000000000500000000000500000000000500000000000400000000000400000000000600000000000200000000000800000000000600000000000600000000000600000000000500000000000500000000000500000000000500000000000500000000000500000000000400000000000400000000000400000000000900000000000800000000000400000000000600000000000400000000000600000000000500000000000500000000000500000000000500000000000500000000000)
 (.leaf 600000000000500000000000500000000000500000000000500000000000400000000000400000000000600000000000400000000000100000000000600000000000700000000000400000000000600000000000400000000000600000000000600000000000400000000000600000000000400000000000500000000000600000000000600000000000500000000000600000000000600000000000800000000000800000000000800000000000800000000000800000000000600000000000200000000000500000000000400000000000600000000000600000000000400000000000400000000000800000000000700000000000600000000000400000000000400000000000800000000000600000000000600000000000600000000000400000000000100000000000600000000000400000000000600000000000400000000000200000000000600000000000700000000000700000000000700000000000800000000000800000000000200000000000200000000000400000000000))))))
 (.node 16 (.node 8 (.node 4 (.node 2 (.node 1 (.leaf 900000000000100000000000400000000000800000000000400000000000600000000000500000000000500000000000500000000000500000000000500000000000400000000000800000000000800000000000700000000000700000000000700000000000800000000000800000000000800000000000600000000000700000000000400000000000900000000000500000000000500000000000500000000000400000000000600000000000400000000000600000000000500000000000400000000000600000000000600000000000500000000000800000000000800000000000800000000000800000000000800000000000800000000000700000000000700000000000700000000000800000000000600000000000600000000000600000000000500000000000100000000000300000000000500000000000500000000000500000000000500000000000500000000000400000000000400000000000600000000000600000000000800000000000800000000000800000000000)
 (.leaf 800000000000800000000000700000000000800000000000800000000000700000000000800000000000800000000000800000000000800000000000800000000000800000000000800000000000800000000000800000000000800000000000600000000000400000000000500000000000500000000000500000000000600000000000500000000000500000000000600000000000500000000000500000000000500000000000500000000000500000000000500000000000400000000000800000000000800000000000800000000000700000000000700000000000600000000000400000000000500000000000500000000000500000000000400000000000400000000000600000000000500000000000500000000000400000000000800000000000200000000000200000000000200000000000800000000000700000000000800000000000800000000000700000000000800000000000800000000000600000000000610150000000400000000000500000000000500000000000))
 (.node 1 (.leaf 500000000000400000000000300000000000200000000000200000000000600000000000400000000000200000000000600000000000200000000000200000000000200000000000200000000000200000000000200000000000400000000000400000000000200000000000100000000000100000000000100000000000100000000000100000000000100000000000800000000000800000000000800000000000700000000000800000000000700000000000800000000000600000000000400000000000600000000000500000000000500000000000500000000000500000000000400000000000500000000000500000000000600000000000500000000000500000000000500000000000500000000000500000000000500000000000500000000000500000000000200000000000400000000000100000000000800000000000700000000000700000000000700000000000600000000000500000000000400000000000700000000000900000000000900000000000500000000000)
 (.leaf 500000000000500000000000400000000000600000000000400000000000500000000000400000000000500000000000400000000000500000000000500000000000500000000000500000000000100000000000200000000000700000000000700000000000700000000000800000000000800000000000800000000000800000000000900000000000900000000000600000000000800000000000600000000000900000000000200000000000600000000000500000000000500000000000500000000000500000000000600000000000600000000000400000000000400000000000100000000000400000000000600000000000500000000000500000000000501180100000500000000000500000000000400000000000600000000000500000000000400000000000900000000000800000000000600000000000400000000000500000000000500000000000100000000000100000000000400000000000800000000000800000000000800000000000800000000000700000000000)))
 (.node 2 (.node 1 (.leaf 700000000000600000000000500000000000500000000000500000000000500000000000800000000000600000000000400000000000400000000000400000000000300000000000600000000000400000000000600000000000500000000000500000000000500000000000500000000000500000000000500000000000500000000000500000000000500000000000100000000000200000000000400000000000700000000000700000000000700000000000800000000000300000000000100000000000200000000000200000000000500000000000400000000000300000000000500000000000500000000000500000000000400000000000600000000000600000000000205030000000600000000000600000000000500000000000500000000000500000000000500000000000500000000000500000000000100000000000400000000000800000000000800000000000700000000000700000000000200000000000300000000000600000000000400000000000500000000000)
 (.leaf 300000000000500000000000400000000000300000000000400000000000400000000000600000000000700380000000400000000000403720000000400000000000600000000000600000000000400000000000400000000000500000000000500000000000500000000000500000000000400000000000800000000000800000000000800000000000800000000000800000000000800000000000800000000000700000000000700000000000700000000000700000000000800000000000800000000000800000000000300000000000500000000000600000000000400000000000600000000000500000000000400000000000200000000000600000000000400000000000400000000000900380000000500000000000500000000000500000000000400000000000400000000000500000000000500000000000500000000000500000000000500000000000500000000000400000000000400000000000600000000000400000000000500000000000400000000000500000000000))
 (.node 1 (.leaf 500000000000500000000000500000000000200000000000200000000000400000000000600000000000800000000000400000000000600000000000400000000000700000000000300000000000600000000000400000000000909050000000100000000000800000000000500000000000700000000000600000000000500000000000500000000000500000000000400000000000800000000000800000000000500000000000500000000000500000000000500000000000500000000000910060100000500000000000603930100000500000000000500000000000600000000000400000000000400000000000600000000000500000000000500000000000400000000000100000000000200000000000200000000000900000000000600000000000600000000000400000000000600000000000500000000000400000000000600000000000400000000000600000000000600000000000400000000000200000000000600000000000600000000000600000000000600000000000)
 (.leaf 400000000000600000000000500000000000400000000000500000000000500000000000500000000000700000000000400000000000500000000000500000000000500000000000500000000000500000000000400000000000500000000000400000000000600000000000500000000000500000000000400000000000400000000000100000000000200000000000100000000000200000000000200000000000100000000000100000000000100000000000100000000000100000000000200000000000600000000000300000000000600000000000600000000000400000000000600000000000400000000000900000000000600000000000500000000000400000000000400000000000600000000000800000000000700000000000600000000000400000000000402460100000600000000000600000000000600000000000900000000000800000000000600000000000400000000000400000000000400000000000900000000000700000000000605700100000400000000000))))
 (.node 4 (.node 2 (.node 1 (.leaf 500000000000700000000000400000000000900000000000400000000000900000000000400000000000500000000000400000000000500000000000400000000000500000000000400000000000800000000000700000000000600000000000200000000000400000000000200000000000200000000000200000000000200000000000100000000000100000000000100000000000100000000000200000000000600000000000100000000000600000000000400000000000600000000000500000000000400000000000800000000000500000000000600000000000300000000000600000000000400000000000800000000000400000000000600000000000900000000000600000000000400000000000500000000000400000000000600000000000500000000000600000000000500000000000100000000000300000000000900000000000404950100000600000000000400000000000600000000000400000000000400000000000400000000000900000000000400000000000)
 (.leaf 200000000000200000000000200000000000900000000000600000000000600000000000600000000000600000000000600000000000400000000000500000000000500000000000400000000000600000000000400000000000700000000000600000000000500000000000600000000000100000000000500000000000400000000000200000000000600000000000600000000000400000000000400000000000600000000000400000000000400000000000900000000000600000000000800000000000600000000000600000000000500000000000400000000000500000000000500000000000400000000000600000000000600000000000500000000000501600000000400000000000400000000000600000000000500000000000400000000000600000000000600000000000200000000000600000000000100000000000400000000000400000000000604370000000100000000000200000000000600000000000500000000000500000000000400000000000600000000000))
 (.node 1 (.leaf 500000000000900000000000900000000000600000000000600000000000600000000000600000000000400000000000400000000000800000000000600000000000400000000000400000000000600000000000400000000000600000000000400000000000600000000000500000000000400000000000400000000000500000000000511760100000900000000000700000000000600000000000500000000000400000000000321570000000222760000000122760100000600000000000500000000000600000000000500000000000500000000000500000000000200000000000608300100000604410000000600000000000612510000000200000000000200000000000200000000000200000000000200000000000600000000000500000000000500000000000500000000000500000000000400000000000608770100000500000000000600000000000600000000000400000000000400000000000900000000000700000000000600000000000400000000000600000000000)
 (.leaf 600000000000400000000000600000000000100000000000400000000000900000000000900000000000800000000000600000000000400000000000900000000000900000000000600000000000800000000000800000000000900000000000800000000000600000000000400000000000400000000000500000000000500000000000800000000000600000000000400000000000500000000000400000000000808520100000611250000000609130000000500000000000611540000000500000000000400000000000900000000000600000000000500000000000500000000000200000000000200000000000400000000000200000000000300000000000200000000000200000000000100000000000300000000000900000000000600000000000500000000000800000000000600000000000500000000000500000000000500000000000500000000000500000000000400000000000908770000000600000000000500000000000900000000000600000000000700000000000)))
 (.node 2 (.node 1 (.leaf 600000000000100000000000422530000000600000000000400000000000600000000000600000000000400000000000800000000000400000000000400000000000400000000000200000000000600000000000400000000000600000000000600000000000400000000000700000000000200000000000800000000000600000000000400000000000600000000000600000000000500000000000500000000000500000000000800000000000600000000000600000000000700000000000900000000000600000000000400000000000800000000000900000000000400000000000800000000000400000000000500000000000400000000000500000000000500000000000500000000000400000000000610960000000600000000000402350000000500000000000404360000000400000000000600000000000400000000000200000000000600000000000400000000000300000000000400000000000400000000000800000000000700000000000600000000000600000000000)
 (.leaf 600000000000900000000000500000000000400000000000600000000000400000000000600000000000500000000000500000000000500000000000400000000000400000000000600000000000400000000000421830000000600000000000800000000000600000000000600000000000400000000000600000000000600000000000600000000000400000000000800000000000600000000000400000000000400000000000600000000000900000000000600000000000400000000000300000000000600000000000400000000000400000000000200000000000400000000000600000000000600000000000805890100000100000000000800000000000600000000000500000000000400000000000700000000000600000000000510870100000500000000000500000000000600000000000900000000000400000000000600000000000400000000000800000000000100000000000300000000000600000000000600000000000600000000000500000000000601190000000))
 (.node 1 (.leaf 900000000000200000000000800000000000100000000000803140100000500000000000500000000000400000000000500000000000400000000000500000000000600000000000400000000000400000000000500000000000500000000000500000000000200000000000600000000000200000000000200000000000500000000000500000000000713860000000600000000000600000000000600000000000500000000000400000000000100000000000900000000000500000000000500000000000500000000000400000000000800000000000800000000000400000000000400000000000212030000000600000000000100000000000600000000000900000000000300000000000600000000000600000000000600000000000600000000000600000000000400000000000600000000000400000000000600000000000700000000000600000000000812130100000400000000000700000000000400000000000400000000000600000000000400000000000200000000000)
 (.leaf 800000000000900000000000800000000000700000000000600000000000600000000000400000000000805000000000900000000000600000000000400000000000600000000000500000000000500000000000500000000000500000000000500000000000400000000000500000000000500000000000400000000000400000000000200000000000200000000000200000000000600000000000600000000000500000000000500000000000500000000000400000000000604480000000600000000000600000000000600000000000422140000000600000000000300000000000801370000000600000000000900000000000500000000000500000000000500000000000400000000000600000000000500000000000600000000000400000000000600000000000900000000000600000000000400000000000608400100000500000000000500000000000600000000000500000000000700000000000400000000000401610000000300000000000600000000000605800000000)))))
 (.node 8 (.node 4 (.node 2 (.node 1 (.leaf 600000000000600000000000400000000000400000000000300000000000600000000000300000000000400000000000300000000000600000000000400000000000600000000000421800100000800000000000400000000000100000000000800000000000600000000000400000000000400000000000700000000000600000000000600000000000500000000000400000000000400000000000600000000000100000000000100000000000100000000000600000000000200000000000600000000000400000000000212360100000600000000000400000000000400000000000900000000000500000000000500000000000500000000000500000000000800000000000800000000000800000000000600000000000500000000000500000000000500000000000900000000000613340100000400000000000500000000000500000000000900000000000600000000000500000000000500000000000100000000000400000000000500000000000500000000000500000000000)
 (.leaf 400000000000200000000000400000000000600000000000500000000000600000000000600000000000300000000000100000000000600000000000204151421960806450000000600000000000500000000000500000000000800000000000800000000000100000000000600000000000100000000000400000000000100000000000400000000000600000000000100000000000500000000000500000000000600000000000800000000000200000000000400000000000400000000000400000000000600000000000600000000000600000000000600000000000600000000000400000000000600000000000900000000000600000000000900000000000700000000000600000000000900000000000800000000000600000000000800000000000400000000000900000000000400000000000300000000000400000000000600000000000600000000000600000000000600000000000500000000000600000000000600000000000100000000000100000000000300000000000))
 (.node 1 (.leaf 600000000000604780100000400000000000200000000000200060000000100000000000100000000000612000000000400000000000600000000000800000000000800000000000800000000000800000000000807430100000900000000000400000000000800000000000600000000000500000000000300000000000400000000000600000000000500000000000500000000000100000000000200000000000500000000000400000000000500000000000600000000000300000000000400000000000601370000000501370000000600000000000600000000000500000000000400000000000700000000000600000000000200000000000400000000000100000000000400000000000600000000000100000000000600000000000500000000000600000000000400000000000700000000000100000000000400000000000408160000000200000000000200000000000300000000000400000000000400000000000600000000000600000000000600000000000600000000000)
 (.leaf 600000000000400000000000600000000000600000000000400000000000800000000000900000000000800000000000800000000000700000000000600000000000400000000000400000000000600000000000400000000000200000000000100000000000600000000000400000000000611850100000400000000000400000000000200000000000600000000000900000000000500000000000100000000000400000000000600000000000400000000000600000000000600000000000400000000000802990100000300060000000100060000000910440100000600000000000500000000000500000000000700000000000809420100000700000000000600000000000400000000000609470100000300000000000600000000000200000000000500000000000500000000000700000000000700000000000700000000000300000000000600000000000200000000000200000000000200000000000200000000000500000000000800000000000618450000000400000000000)))
 (.node 2 (.node 1 (.leaf 400000000000118820000000600000000000512720100000400000000000300000000000900000000000500000000000500000000000500000000000600000000000600000000000600000000000700000000000600000000000500000000000500000000000600000000000400000000000900000000000600000000000600000000000400000000000100000000000605790000000600000000000300000000000600000000000800000000000800000000000400000000000600000000000600000000000600000000000600000000000300000000000100000000000400000000000400000000000600000000000400000000000600000000000400000000000600000000000600000000000400000000000400000000000400000000000600000000000400000000000200000000000400000000000600000000000400000000000600000000000400000000000200000000000500000000000900000000000500000000000500000000000522430100000500000000000500000000000)
 (.leaf 500000000000500000000000500000000000400000000000200000000000200000000000400000000000300000000000400000000000900000000000400000000000800000000000600000000000600000000000400000000000700000000000401380000000601270000000600000000000602950000000212700100000422810100000700000000000300000000000300000000000200000000000400000000000600270000000400270000000521730000000521730100000500000000000400000000000500000000000500000000000700000000000700000000000600000000000500000000000500000000000500000000000500000000000419470621967318470000000618470000000605620100000606310100000500000000000500000000000500000000000400000000000700000000000300000000000300000000000800000000000400000000000600000000000400000000000609960000000500000000000400000000000600000000000400000000000600000000000))
 (.node 1 (.leaf 400000000000100000000000200000000000200000000000600000000000300000000000600000000000200000000000200000000000200000000000600000000000700000000000600000000000600000000000600000000000800000000000600000000000400000000000600000000000800000000000800000000000400000000000600000000000800000000000600000000000400000000000700000000000800000000000600000000000400000000000400000000000400000000000600000000000300000000000600000000000400000000000600000000000400000000000600000000000100000000000500000000000100000000000600000000000400000000000600000000000400000000000200000000000400000000000800000000000800000000000100000000000600000000000800000000000800000000000900000000000800000000000400000000000407120000000400000000000601700000000208990000000601270000000800000000000700000000000)
 (.leaf 800000000000600000000000700000000000300000000000400000000000200000000000500000000000400000000000800000000000800000000000500000000000500000000000500000000000500000000000400000000000400000000000700000000000600000000000500000000000500000000000500000000000500000000000500000000000600000000000407530100000619480000000300000000000500000000000500000000000500000000000500000000000100000000000400000000000600000000000609940000000500000000000400000000000600000000000300000000000600000000000400000000000700000000000600000000000700000000000400000000000600000000000400000000000600000000000400000000000600000000000400000000000400000000000600000000000200000000000600000000000600000000000600000000000600000000000400000000000400000000000600000000000400000000000600000000000400000000000))))
 (.node 4 (.node 2 (.node 1 (.leaf 600000000000300000000000100000000000600000000000600000000000600000000000400000000000500000000000500000000000400000000000800000000000512990100000400000000000600000000000100000000000600000000000400000000000200000000000400000000000700000000000600000000000400000000000600000000000900000000000600000000000611230000000400060000000700060000000100000000000600000000000812340100000800000000000212650000000811190100000100000000000600000000000500000000000500000000000500000000000400000000000122540000000500000000000108220100000700000000000700000000000700000000000800000000000500000000000500000000000700000000000600000000000600000000000500000000000600000000000318440621950407610000000107610000000606820000000600000000000600000000000400000000000800000000000700000000000200000000000)
 (.leaf 600000000000400000000000700000000000100000000000400000000000600000000000600000000000200000000000600000000000700000000000400000000000400000000000100000000000200000000000600000000000300000000000100000000000600000000000100000000000600000000000200000000000600000000000600000000000100000000000100000000000400000000000600000000000400000000000800000000000600000000000700000000000700000000000200000000000600000000000800000000000600000000000400000000000400000000000200000000000400000000000400000000000300000000000600000000000606520000000200000000000600000000000500000000000500000000000100000000000900000000000600000000000400000000000900000000000300000000000400000000000900000000000400000000000700000000000700000000000600000000000800000000000700000000000700000000000600060000000))
 (.node 1 (.leaf 400000000000400000000000200000000000401880000000900000000000612340000000602770100000400000000000300000000000500000000000200000000000500000000000600000000000606120100000100000000000500000000000400000000000400000000000600000000000400000000000100000000000100000000000900000000000900000000000400000000000300000000000407610000000500000000000500000000000500000000000400000000000600000000000400000000000600000000000600000000000100000000000300000000000411880100000600000000000600000000000800000000000400000000000300000000000600000000000600000000000100000000000600000000000400000000000200000000000200000000000400000000000300000000000400000000000400000000000800000000000400000000000600000000000600000000000400000000000900000000000600000000000600000000000700000000000600000000000)
 (.leaf 600000000000600000000000500000000000500000000000400000000000900000000000600000000000400000000000100000000000400000000000400000000000600000000000400000000000200000000000600000000000700000000000100000000000600000000000600000000000206370000000600000000000410930100000305690000000205690000000822360100000605820000000609550100000700000000000800000000000613540100000600000000000500000000000500000000000500000000000500000000000100000000000100000000000500000000000500000000000800000000000400000000000600000000000400000000000600000000000411650000000300000000000600000000000600000000000500000000000500000000000400000000000700000000000400000000000606260000000600000000000500000000000800000000000400000000000600000000000400000000000600000000000700000000000600000000000400000000000)))
 (.node 2 (.node 1 (.leaf 411880000000800000000000400000000000600000000000800000000000900000000000000000000000400000000000400000000000600000000000400000000000200000000000200000000000400000000000300000000000400000000000900000000000400000000000200000000000200000000000600000000000600000000000200000000000600000000000400000000000400000000000100000000000300000000000400000000000600000000000400000000000100000000000600000000000400000000000900000000000400000000000200000000000900000000000400000000000600000000000600000000000500000000000400000000000900000000000600000000000800000000000600000000000600000000000400000000000400000000000600000000000900000000000400000000000803500000000222360000000200000000000400000000000601420000000900000000000800000000000500000000000500000000000500000000000500000000000)
 (.leaf 600000000000400000000000500000000000500000000000700000000000800000000000700000000000200000000000500000000000500000000000500000000000500000000000500000000000500000000000500000000000400000000000207340000000300000000000700000000000600000000000206940100000800000000000607170621956400000000000400000000000600000000000400000000000900000000000400000000000200000000000100000000000200000000000800000000000800000000000600000000000400000000000600000000000600000000000600000000000000000000000600000000000400000000000700000000000800000000000800000000000900000000000400000000000300000000000600000000000100000000000400000000000400000000000600000000000700000000000700000000000600000000000900000000000900000000000800000000000400000000000800000000000600000000000400000000000600000000000))
 (.node 1 (.leaf 800000000000600000000000600000000000505020100000500000000000200000000000800000000000900000000000400000000000400000000000800000000000100000000000800000000000300000000000600000000000100000000000400000000000600000000000800000000000600000000000800000000000411830100000800000000000100000000000400000000000211820100000122780100000810600100000607950100000700000000000800420000000210340000000202390000000323050100000322980000000822980000000500000000000500000000000500000000000500000000000400000000000400000000000600000000000200000000000500000000000400000000000600000000000500000000000500000000000500000000000400000000000313410100000112300100000619540000000200000000000601660000000900000000000600000000000900000000000100000000000600000000000400000000000600000000000600000000000)
 (.leaf 400000000000700000000000700000000000800000000000400000000000800000000000600000000000800000000000800000000000700000000000600000000000600000000000400000000000400000000000600000000000800000000000800000000000400000000000400000000000900000000000800000000000600000000000400000000000400000000000600000000000400000000000600000000000600000000000600000000000600000000000800000000000700000000000600000000000200000000000100000000000600000000000400000000000900000000000700000000000800000000000505020000000800000000000400000000000421630000000300000000000200000000000400000000000400000000000400000000000600000000000900000000000600000000000600000000000600000000000408240100000200080000000100000000000222470100000711610100000801980000000602390000000600000000000622980000000500000000000))))))))))
 (.node 256 (.node 128 (.node 64 (.node 32 (.node 16 (.node 8 (.node 4 (.node 2 (.node 1 (.leaf 500000000000500000000000500000000000200000000000200000000000400000000000800000000000700000000000600000000000500000000000400000000000700000000000608450100000423000100000406590100000400000000000300150000000700000000000100000000000200000000000400000000000100000000000600000000000800000000000100000000000600000000000400000000000600000000000400000000000600000000000100000000000300000000000200000000000400000000000400000000000400000000000100000000000600000000000600000000000200000000000800000000000800000000000600640000000400000000000400000000000800000000000800000000000600000000000800000000000400000000000400000000000100000000000900000000000800000000000700000000000300000000000600000000000700000000000700000000000600000000000600000000000400000000000600000000000900000000000)
 (.leaf 600000000000400000000000503280100000503280000000500000000000400000000000400000000000400000000000400000000000100000000000800000000000300000000000300000000000400000000000800000000000400000000000900000000000900000000000600000000000400000000000400000000000600000000000400000000000800000000000600080000000408180100000607730000000300000000000201830000000500000000000500000000000100000000000200000000000400000000000315480621956600000000000400000000000618460621962500000000000202750000000102750000000619590000000306930000000205340000000300150000000600000000000800000000000600000000000600000000000400000000000800000000000400000000000600000000000400000000000600000000000200000000000600000000000400000000000300000000000200000000000200000000000600000000000400000000000100000000000))
 (.node 1 (.leaf 600000000000400000000000600000000000600000000000400000000000600000000000400000000000600000000000400000000000800000000000400000000000600000000000600000000000900000000000400000000000600000000000200000000000200000000000400000000000600000000000400000000000200000000000900000000000600000000000700000000000800000000000200000000000200000000000600000000000400000000000400000000000300000000000600000000000600000000000500000000000411810000000400000000000800000000000600000000000400000000000621630000000600000000000400000000000800000000000800000000000200000000000200000000000300000000000600000000000800000000000400000000000600000000000400000000000300080000000600080000000400080000000604310000000822750100000600000000000622230000000600000000000400000000000700000000000700000000000)
 (.leaf 200000000000200000000000600000000000400000000000600000000000306661421970600000000000800000000000500000000000400000000000200000000000207670000000321790000000422490000000400000000000800000000000600000000000400000000000400000000000800000000000600000000000600000000000400000000000100000000000400000000000600000000000300000000000100000000000400000000000600000000000600000000000800640000000600000000000800000000000400000000000400000000000600000000000400000000000600000000000600000000000400000000000200000000000400000000000300000000000600000000000700000000000400000000000700000000000600000000000500000000000500000000000400000000000400000000000200000000000200000000000600000000000400000000000400000000000100000000000400000000000600000000000400000000000500000000000800000000000)))
 (.node 2 (.node 1 (.leaf 700000000000400000000000409160100000123030000000700000000000800000000000801900000000604850100000400000000000400000000000500000000000500000000000500000000000500000000000400000000000300000000000600000000000619590000000300130000000600130000000400000000000700000000000600000000000400000000000400000000000400000000000600000000000400000000000400000000000200000000000600000000000600000000000200000000000600000000000600000000000400000000000600000000000800000000000100000000000800000000000400000000000400000000000700000000000600000000000700000000000600000000000600000000000400000000000200000000000600000000000600000000000300000000000600000000000800000000000600000000000400000000000400000000000200000000000200000000000200000000000200000000000700000000000600000000000400000000000)
 (.leaf 800000000000500000000000500000000000500000000000500000000000500000000000900000000000200000000000600000000000400000000000500000000000800000000000600000000000700000000000400000000000500000000000500000000000500000000000500000000000400000000000800000000000700000000000200000000000803350000000400000000000200000000000600000000000300000000000300000000000300000000000400000000000600000000000601310000000612530100000600000000000500000000000400000000000700000000000600000000000100000000000600000000000600000000000500000000000700000000000400150000000100000000000403210000000400000000000700000000000400000000000200000000000600000000000200000000000600000000000623110000000900000000000800000000000400000000000700000000000600000000000600000000000400000000000800000000000400000000000))
 (.node 1 (.leaf 200000000000200000000000400000000000100000000000300000000000600000000000800000000000300000000000600000000000600000000000400000000000200000000000600000000000400000000000800000000000600000000000500000000000400000000000403220100000400000000000400000000000322570000000200000000000404200000000500000000000504760100000712950000000500000000000600000000000809640000000603050000000600000000000600000000000600000000000400000000000700000000000600000000000100000000000208170100000602710100000613060000000411550100000606680000000600000000000400000000000600000000000300000000000500000000000500000000000500000000000500000000000500000000000500000000000500000000000400000000000300000000000600000000000400000000000400000000000600000000000400000000000400000000000600000000000600000000000)
 (.leaf 600000000000400000000000400000000000400000000000600000000000400000000000100000000000100000000000400000000000600000000000400000000000800000000000700000000000600000000000600000000000800000000000600000000000600000000000900000000000600000000000300000000000400000000000300000000000600000000000600000000000200000000000200000000000200000000000600000000000500000000000500000000000600000000000500000000000400000000000500000000000500000000000500000000000500000000000100000000000402320100000400000000000200000000000403440000000400000000000900000000000800000000000700000000000600000000000202340100000813100100000400660000000203780000000300000000000600000000000700000000000805520100000500000000000500000000000619620000000600000000000100000000000500000000000500000000000500000000000))))
 (.node 4 (.node 2 (.node 1 (.leaf 500000000000500000000000700000000000300000000000603270000000400000000000600000000000200000000000400000000000600000000000100000000000600000000000600000000000700000000000400000000000800000000000400000000000200000000000600000000000400000000000300000000000200000000000800000000000900000000000100000000000700000000000400000000000400000000000900000000000300000000000400000000000400000000000300000000000600000000000400000000000200000000000600000000000600000000000400000000000400000000000500000000000500000000000410020000000400000000000222570000000422600000000522600000000500000000000300000000000500000000000400000000000700000000000600000000000800000000000900000000000400000000000600000000000400000000000600000000000306270000000400000000000602610000000823090100000600000000000)
 (.leaf 400000000000500000000000500000000000321960000000300000000000409340100000602860000000521820000000500000000000500000000000200000000000400000000000800000000000600000000000603270000000600000000000400000000000200000000000200000000000600000000000400000000000600000000000100000000000600000000000200000000000600000000000900000000000400000000000600000000000100000000000200000000000600000000000200000000000400000000000400000000000200000000000400000000000400000000000600000000000800000000000600000000000800000000000600000000000600000000000900000000000600000000000500000000000400000000000600000000000422600000000400000000000600000000000900000000000600000000000600980000000400000000000800000000000400000000000600000000000600000000000400000000000609730000000611730000000500000000000))
 (.node 1 (.leaf 513080000000500000000000400000000000500000000000500000000000418680000000600000000000400000000000100000000000400000000000100410000000100000000000800000000000400000000000600000000000200000000000600000000000400000000000600000000000400000000000600000000000600000000000600000000000400000000000400000000000400000000000300000000000600000000000400000000000900000000000700000000000900000000000600000000000700000000000800000000000400000000000300000000000400000000000500000000000401150000000400000000000700000000000100000000000400000000000600000000000400000000000900000000000800980000000400000000000800000000000600000000000300000000000609900000000600000000000500000000000800000000000606700000000600000000000500000000000500000000000500000000000500000000000900770000000910540100000)
 (.leaf 800000000000605090100000800000000000400410000000201500000000400000000000200000000000200000000000800000000000600000000000600000000000600000000000700000000000800000000000600000000000600000000000600000000000900000000000400000000000600000000000800000000000600000000000600000000000900000000000700000000000800000000000600000000000400000000000600000000000400000000000600000000000400000000000600000000000500000000000400000000000500000000000407500100000400000000000400000000000600000000000800000000000800000000000400000000000700000000000400000000000200000000000600000000000600000000000800000000000400000000000800000000000300000000000900000000000700000000000400000000000500000000000500000000000500000000000500000000000500000000000400000000000900000000000700000000000600000000000)))
 (.node 2 (.node 1 (.leaf 400000000000400000000000600000000000400000000000600000000000600000000000400000000000400000000000800000000000400000000000900000000000400000000000400000000000400000000000700000000000200000000000300000000000900000000000600000000000900000000000700000000000600000000000600000000000400000000000500000000000800000000000800000000000600000000000400000000000100000000000900000000000200000000000600000000000600000000000600000000000600000000000700000000000600000000000700000000000200000000000400000000000601080000000613330100000300000000000200590000000600000000000500000000000500000000000400000000000601640000000800000000000600000000000900000000000700000000000400000000000600000000000900000000000600000000000500000000000100000000000100000000000600000000000800000000000400000000000)
 (.leaf 900000000000300000000000600000000000600000000000200000000000400000000000800000000000600000000000100000000000101740000000400000000000600000000000900000000000400000000000400000000000900000000000600000000000800000000000800000000000400000000000800000000000800000000000800000000000400000000000800000000000600000000000900000000000900000000000700000000000600000000000400000000000700000000000600000000000800000000000300000000000500000000000700000000000100000000000600000000000500000000000300000000000600000000000600000000000600000000000400000000000600000000000400000000000600000000000200000000000100000000000612820100000213200100000622820000000600000000000400000000000600000000000500000000000402640100000600000000000422910100000600000000000500000000000300000000000500000000000))
 (.node 1 (.leaf 401110000000500000000000407650100000207780100000500000000000400000000000600000000000700000000000600000000000200000000000300000000000300000000000200000000000400000000000100000000000800000000000800000000000400000000000300000000000600000000000600000000000600000000000400000000000400000000000800000000000800000000000800000000000400000000000400000000000400000000000800000000000600000000000800000000000700000000000800000000000600000000000700000000000700000000000400000000000600000000000700000000000600000000000600000000000700000000000500000000000400000000000800000000000600000000000502510000000500000000000600000000000400000000000400000000000600000000000200000000000900000000000321980000000203030100000200000000000223060100000623060000000900590000000609530000000900000000000)
 (.leaf 900000000000600000000000401000000000900000000000700000000000600000000000500000000000500000000000500000000000500000000000500000000000200000000000500000000000500000000000500000000000800000000000700000000000800000000000900000000000800000000000400000000000100000000000900000000000400000000000600000000000400000000000100000000000600000000000600000000000606390100000400000000000400000000000800000000000400000000000800000000000400000000000800340000000700000000000400000000000400000000000400000000000600000000000400000000000800000000000600000000000600000000000600000000000800000000000800000000000800000000000400000000000800000000000700000000000600000000000305760000000600000000000900000000000900000000000800000000000201170000000805010100000800000000000600000000000621980000000)))))
 (.node 8 (.node 4 (.node 2 (.node 1 (.leaf 400000000000500000000000500000000000410400100000900000000000600000000000709450100000809450000000805320000000422690100000600000000000400000000000600000000000400000000000400000000000500000000000200000000000100000000000400000000000400000000000813150000000600000000000200000000000600000000000600000000000600000000000900000000000100000000000400000000000800000000000600000000000900000000000600000000000605900100000600000000000100000000000900000000000600000000000800000000000800000000000700000000000700000000000400000000000600000000000600000000000100000000000200000000000600000000000400000000000200000000000600000000000800000000000500000000000400000000000800000000000500000000000600000000000900000000000411010000000800000000000203380000000609290000000907390100000906880000000)
 (.leaf 600000000000600000000000500000000000400000000000900000000000600000000000800000000000722690000000600000000000500000000000500000000000600000000000500000000000200000000000200000000000600000000000400000000000100000000000600000000000600000000000300000000000400000000000600000000000600000000000700000000000400000000000600000000000600000000000800000000000800000000000600000000000400000000000000000000000600000000000200740000000205910000000100000000000600000000000800000000000800000000000600000000000900000000000600000000000800000000000418670000000200000000000600000000000400000000000400000000000200000000000200000000000200000000000300000000000600000000000200000000000200000000000400000000000900000000000800000000000600000000000200000000000800000000000700000000000900000000000))
 (.node 1 (.leaf 900000000000700000000000400000000000405990000000603070100000905040100000821620000000605810100000607250000000409310100000911940100000900000000000900000000000405920000000400000000000400000000000400000000000708760100000200900000000200000000000600000000000500000000000800000000000703620100000500000000000500000000000500000000000600000000000500000000000500000000000500000000000500000000000400000000000400000000000200000000000800000000000900000000000600000000000100000000000700000000000800000000000400000000000800000000000600000000000800000000000600000000000400000000000600000000000000000000000900000000000200000000000100000000000800000000000100000000000400000000000800000000000800000000000900000000000700000000000400000000000400000000000418670000000900000000000800000000000)
 (.leaf 600000000000800000000000600000000000600000000000400000000000400000000000305660100000400000000000600000000000305490000000705490000000600000000000400000000000800000000000803040000000900000000000300000000000604130100000601871421975603410000000621840000000811440100000900000000000600000000000400000000000400000000000407450000000419640000000600900000000400230000000600000000000600000000000500000000000711260100000300000000000500000000000500000000000500000000000500000000000500000000000500000000000500000000000500000000000500000000000600000000000400000000000413550621974600000000000600000000000400000000000700000000000800280000000400000000000900000000000800000000000400000000000400000000000600000000000600000000000600000000000005200000000000000000000000000000000400000000000)))
 (.node 2 (.node 1 (.leaf 407100000000400000000000700000000000800000000000400000000000800000000000400000000000600000000000800000000000100000000000418670000000400000000000100000000000600000000000900000000000100000000000400000000000200000000000700700000000400000000000600000000000800000000000400000000000800000000000200000000000500000000000622300000000700000000000800000000000900000000000600000000000600000000000809110100000810050000000600000000000300100000000400000000000622960100000421840000000805980100000602080000000600000000000600000000000600900000000600230000000400230000000600000000000500000000000500000000000500000000000212520000000500000000000500000000000600000000000300000000000211120100000200000000000400000000000300000000000200000000000300000000000400000000000300000000000200000000000)
 (.leaf 600000000000700000000000600000000000700000000000400000000000400000000000200000000000400000000000200000000000600000000000600000000000600000000000900000000000800000000000613130000000006690100000400000000000400000000000200000000000300000000000400000000000600000000000600000000000400340000000400000000000400000000000900000000000100000000000100000000000600000000000200000000000200000000000900000000000800000000000200000000000500000000000204580000000400000000000500000000000605350100000600000000000400000000000600000000000900000000000900000000000600000000000600000000000300260000000400000000000600000000000904570000000900000000000400000000000422640000000400000000000706410000000922190000000800000000000500000000000507890100000500000000000500000000000700000000000400000000000))
 (.node 1 (.leaf 800000000000400000000000200000000000400000000000300000000000100000000000100000000000700000000000600000000000100000000000400000000000800000000000400000000000600000000000400000000000700000000000800000000000400000000000400000000000600000000000600000000000400000000000900000000000007710100000400000000000400000000000700000000000400000000000400000000000200000000000800000000000300000000000400340000000800000000000400000000000900000000000400000000000200000000000400000000000400000000000400000000000600000000000800000000000200000000000500000000000400000000000300000000000200000000000400000000000900000000000600000000000405580000000800000000000600000000000600000000000600000000000600000000000400000000000802630000000408280000000900000000000400000000000400000000000400000000000)
 (.leaf 100000000000822460000000200000000000800000000000822260000000300000000000812830000000600000000000600000000000300000000000300000000000600000000000600000000000400000000000800000000000200000000000800000000000600000000000400000000000700000000000300000000000200000000000400000000000900000000000900000000000200000000000400000000000400000000000400890000000400000000000400000000000200000000000600000000000800000000000000000000000400000000000600000000000000000000000400000000000800000000000800000000000200000000000400000000000600000000000100000000000100000000000613270100000900000000000600000000000600000000000400000000000900000000000800000000000600000000000300000000000200000000000600000000000500000000000500000000000500000000000500000000000400000000000600000000000200000000000))))
 (.node 4 (.node 2 (.node 1 (.leaf 614130621972200000000000600000000000900100000000809970100000900000000000600000000000500000000000400000000000200650000000300000000000810770100000210770000000600000000000200000000000200000000000600000000000500000000000300000000000600000000000500000000000500000000000200000000000400000000000600000000000500000000000700000000000700000000000800000000000400000000000600000000000100000000000400000000000100000000000600000000000700000000000200000000000400000000000400000000000900000000000400000000000200000000000200000000000200000000000600000000000000000000000000000000000800000000000100000000000200000000000100000000000600000000000000000000000400000000000800000000000012180100000400000000000400000000000600000000000801090000000400000000000400000000000400000000000600000000000)
 (.leaf 400000000000200000000000600000000000900000000000600000000000600000000000400000000000400000000000600000000000600000000000500000000000500000000000400000000000500000000000500000000000200000000000607700100000600000000000600000000000400000000000600000000000600000000000600000000000200000000000605460100000600000000000600260000000400000000000209170100000600000000000600000000000900000000000900000000000900000000000409320000000124350000000200000000000200000000000303890100000306040621960323260000000210580100000300000000000600000000000400000000000700000000000800000000000600000000000400000000000800000000000400000000000400000000000900000000000900000000000600000000000400000000000400000000000200000000000600000000000400000000000621670000000400000000000600000000000600000000000))
 (.node 1 (.leaf 400000000000000000000000400000000000800000000000600000000000800000000000300000000000700000000000100000000000600000000000618670000000400000000000400000000000400000000000400000000000600000000000600000000000800000000000600000000000200000000000400000000000400000000000203630000000600000000000500000000000500000000000500000000000200000000000200000000000222560000000600000000000600000000000200000000000900000000000600000000000600000000000800100000000400000000000400000000000600000000000100000000000200000000000500000000000500000000000500000000000500000000000500000000000400000000000400000000000600000000000400000000000600000000000400000000000700000000000800000000000900000000000800000000000600000000000400000000000800000000000600000000000600000000000300000000000400000000000)
 (.leaf 700000000000100000000000600000000000400000000000900000000000400000000000921670000000400000000000400000000000800000000000400000000000000000000000400000000000400000000000600000000000600000000000400000000000200000000000800000000000618670000000300000000000400000000000900000000000600000000000600000000000400000000000800000000000200000000000600000000000400000000000400000000000223580000000400000000000800000000000800000000000500000000000614960621960700000000000200000000000600000000000603010000000600000000000800000000000400000000000202741421941200000000000500000000000500000000000800000000000700000000000800000000000600000000000400000000000200000000000100000000000200000000000600000000000400000000000400000000000200000000000400000000000700000000000100000000000613320100000)))
 (.node 2 (.node 1 (.leaf 400000000000400000000000800000000000900000000000400000000000600000000000400000000000700000000000900000000000800000000000200510000000600000000000300000000000200000000000200000000000200000000000600000000000100000000000400000000000600000000000400000000000400000000000600000000000900000000000600000000000500000000000700000000000500000000000511780000000600000000000400000000000800000000000219240000000600000000000600000000000600000000000600000000000800000000000400000000000600000000000100000000000600320000000900000000000600000000000807960100000200000000000200000000000200000000000200000000000200000000000500000000000500000000000500000000000500000000000506910000000500000000000500000000000500000000000800000000000400000000000200000000000100000000000600000000000400000000000)
 (.leaf 900000000000600000000000800000000000800000000000800000000000600000000000800000000000600000000000200000000000600000000000200000000000200000000000400000000000300000000000200000000000200000000000200000000000200000000000100000000000400000000000600000000000200000000000200000000000200000000000100000000000600000000000400000000000600000000000600000000000400000000000700000000000000000000000400000000000700000000000605770000000600000000000400000000000400000000000600000000000600000000000800000000000300000000000601670000000600000000000400000000000600000000000400000000000100000000000400000000000400000000000500000000000511780000000500000000000204280100000119410000000100000000000600000000000600000000000804230000000200000000000600000000000800000000000704400100000706750000000))
 (.node 1 (.leaf 805240000000810290000000600330000000412040100000900000000000900000000000406320100000200000000000518350000000500000000000700000000000400000000000600000000000400000000000200000000000800000000000800000000000600000000000600000000000300000000000400000000000600000000000200000000000300000000000200000000000400000000000200000000000800000000000900000000000000000000000800000000000400000000000800000000000700000000000800000000000409600000000800000000000600000000000700000000000400000000000400000000000700000000000604740000000400000000000800000000000300000000000400000000000100000000000400000000000300000000000400000000000600000000000100000000000800000000000400000000000600000000000800000000000300000000000500000000000600000000000600000000000900000000000600000000000000000000000)
 (.leaf 300000000000600000000000800000000000600000000000600000000000600000000000600390000000421760100000100000000000810570100000600000000000900000000000809140100000600000000000500000000000402980621924500000000000500000000000400000000000815540621963200000000000400000000000800000000000600000000000200000000000200000000000600000000000200000000000400000000000200000000000300000000000200000000000200000000000400000000000400000000000600000000000300000000000800000000000600000000000800000000000700000000000900000000000800000000000400000000000400000000000600000000000600000000000400950000000000000000000400000000000007290100000800000000000900000000000300000000000600000000000600000000000600000000000400000000000900000000000400000000000600000000000600000000000400000000000900000000000))))))
 (.node 16 (.node 8 (.node 4 (.node 2 (.node 1 (.leaf 600000000000507980000000500000000000500000000000200000000000200000000000600000000000200000000000200000000000700000000000400000000000105370100000208680100000200010000000200010000000200010000000400000000000800000000000711680100000401540000000412170100000300930000000500000000000500000000000500000000000600000000000607460621928611150000000611150000000500000000000500000000000400000000000700000000000400000000000800000000000600000000000400000000000200000000000200000000000100000000000400000000000200690000000400000000000000000000000200000000000400000000000200000000000100000000000600000000000600000000000100000000000200000000000700000000000600000000000600000000000400000000000100000000000900000000000800000000000400000000000006830000000800000000000400000000000800000000000)
 (.leaf 600000000000900000000000400000000000300000000000600000000000100000000000100000000000800000000000600000000000500000000000400000000000318860000000219760000000413780611952600000000000600000000000408940000000418721421931300010000000800000000000800000000000800000000000821851521949500000000000500000000000500000000000219740621967500000000000500000000000200000000000100000000000400000000000800000000000600000000000900000000000200000000000100000000000600000000000600000000000400000000000200000000000700000000000100000000000400000000000400000000000600000000000300000000000200000000000200000000000200000000000200000000000000000000000400000000000400000000000200000000000300000000000400000000000800000000000300000000000200000000000700000000000400000000000300000000000200000000000))
 (.node 1 (.leaf 100000000000600000000000800000000000100000000000600000000000400350000000200000000000400000000000800000000000600000000000400000000000900000000000600000000000900000000000100000000000600000000000800000000000600000000000400000000000400000000000300000000000100000000000700000000000800000000000400000000000400000000000600000000000800000000000600000000000400000000000718720000000800000000000419010621959600000000000200000000000607221421941500000000000600000000000600000000000500000000000500000000000500000000000200000000000400000000000700000000000100000000000800000000000800000000000700000000000300000000000300000000000200630000000600000000000300000000000400000000000300000000000300000000000200000000000200000000000400000000000400000000000200000000000600000000000400000000000)
 (.leaf 400000000000200000000000400000000000800000000000600000000000100000000000200000000000900000000000800000000000400000000000200000000000600000000000404160000000400000000000800000000000600000000000600000000000400000000000800000000000600000000000700000000000200000000000600000000000100000000000300000000000900000000000400000000000300000000000500000000000500000000000500000000000500000000000300000000000400000000000100000000000400000000000600000000000800000000000600000000000600000000000600870000000600000000000600000000000400000000000619791421885200000000000800010000000600010000000419810000000207760100000402910000000614510000000200000000000500000000000200000000000406630000000600000000000600000000000600000000000600000000000400000000000400000000000316240621961200000000000)))
 (.node 2 (.node 1 (.leaf 600000000000600000000000100000000000500000000000300000000000300000000000300000000000500000000000400000000000100000000000200000000000200000000000200000000000700000000000400000000000200000000000300000000000100000000000100000000000800000000000400000000000600000000000400000000000700000000000400000000000800000000000400000000000600000000000600000000000600000000000800000000000700000000000400000000000600000000000400000000000100000000000600000000000500000000000400000000000600000000000413870000000400000000000800000000000617430611949400000000000600000000000900010000000800010000000800010000000200000000000210100100000206110000000824670100000200000000000304670000000119830621954612490621930500000000000900000000000600000000000400000000000600000000000500000000000806630000000)
 (.leaf 700000000000800000000000200000000000100000000000600000000000602310000000800000000000400000000000200000000000513440100000500000000000500000000000400000000000800000000000300000000000400000000000400000000000000000000000400000000000400000000000400000000000400000000000300000000000200140000000600000000000200000000000200000000000100000000000300000000000608750000000200000000000600000000000800000000000400000000000600000000000000000000000000000000000600000000000200000000000600000000000600000000000800000000000800000000000000000000000800000000000600000000000400000000000400000000000400000000000500000000000419840621968400000000000800000000000208880000000600000000000600000000000400000000000419820000000600000000000400000000000200000000000900040000000411270000000300000000000))
 (.node 1 (.leaf 200000000000700000000000200000000000107270000000400000000000700000000000800000000000200000000000400000000000200000000000600000000000800000000000700000000000400000000000200000000000600000000000300000000000500680100000500680000000400000000000401860000000600000000000200020000000200020000000200020000000200000000000400000000000300000000000400140000000800140000000800140000000600000000000400000000000600000000000400000000000300000000000200000000000600000000000000000000000200000000000000000000000200000000000000000000000300000000000400000000000600000000000800000000000600000000000600000000000400000000000800000000000100000000000500000000000500000000000413750000000600000000000600000000000300000000000400000000000800000000000600000000000300000000000600000000000100000000000)
 (.leaf 200000000000300040000000200040000000600040000000400000000000600000000000800000000000218781421835500000000000400000000000400000000000100000000000300000000000318921421942309620100000300000000000203790000000300000000000600000000000300000000000600000000000400000000000206280000000500000000000400000000000700000000000800000000000800000000000600000000000500000000000500000000000100000000000400000000000300020000000400000000000400000000000400000000000700000000000600140000000400000000000400000000000800000000000700500000000200000000000600000000000400000000000600000000000400000000000800000000000000000000000400000000000200000000000600000000000600000000000200000000000200000000000000000000000000000000000400000000000600000000000600000000000600000000000700000000000400000000000))))
 (.node 4 (.node 2 (.node 1 (.leaf 800000000000800000000000900000000000600000000000300000000000600000000000600000000000200000000000300030000000421740000000600000000000600000000000300000000000500000000000500000000000600000000000100000000000400000000000800000000000800000000000400000000000600000000000500000000000500000000000500000000000400000000000600020000000400000000000400000000000600140000000400000000000700000000000400000000000400000000000400000000000000000000000000000000000400000000000000000000000000000000000600000000000000000000000600000000000400000000000600000000000800000000000700000000000600000000000600000000000600000000000800000000000700000000000500000000000500000000000418970621967400000000000600000000000800000000000800000000000414900000000704340100000915360621909800000000000600000000000)
 (.leaf 600000000000300000000000900000000000200000000000400040000000600000000000401730100000207190000000200000000000400000000000512710000000500000000000400000000000800000000000800000000000900000000000600000000000900000000000300000000000300000000000600000000000502650000000400000000000800000000000600000000000800000000000800000000000800000000000400000000000400000000000400000000000400000000000800000000000400000000000400000000000700000000000900000000000700000000000903060100000800000000000000000000000000000000000400000000000000000000000000000000000000000000000100000000000400000000000100000000000600000000000600000000000400000000000600000000000000000000000000000000000000000000000000000000000400000000000600000000000400000000000700000000000200000000000400000000000600000000000))
 (.node 1 (.leaf 600000000000600000000000500000000000500000000000418970000000400000000000400000000000900000000000200000000000915360000000600000000000600000000000600000000000200000000000400000000000400030000000800000000000200000000000500000000000508320000000500000000000400000000000100000000000119850000000900000000000500000000000700000000000800000000000800000000000300000000000500000000000800000000000600000000000600000000000600000000000900000000000600020000000400000000000800000000000700000000000400000000000200000000000800000000000800000000000800000000000400000000000800000000000700000000000200000000000800000000000000000000000600000000000600000000000000000000000000000000000400000000000200000000000300000000000800000000000900000000000400000000000500000000000800000000000500000000000)
 (.leaf 509710100000719880000000800000000000300000000000600000000000600000000000218870000000600000000000300000000000800000000000600000000000400040000000100000000000200000000000400030000000600120000000400000000000801280000000500000000000500000000000500000000000400000000000419870000000500000000000400000000000500000000000500000000000200000000000600000000000500000000000500000000000800000000000600000000000500000000000200000000000600000000000800000000000600000000000700000000000700000000000800000000000700000000000400000000000600000000000600000000000400000000000900000000000800000000000800000000000800000000000400000000000600000000000400000000000600000000000600000000000400000000000600000000000000000000000300000000000000000000000600000000000600000000000600000000000800000000000)))
 (.node 2 (.node 1 (.leaf 600000000000200000000000800000000000814730621965200000000000900000000000800000000000500000000000400000000000500000000000400000000000000000000000609430100000417460000000200000000000600000000000800000000000600000000000900000000000800000000000300000000000300000000000200000000000200000000000200000000000100000000000300000000000406710000000219890000000200000000000500000000000500000000000500000000000500000000000700000000000600000000000400000000000600000000000521610000000500000000000211290100000500000000000500000000000816310621985700000000000800000000000400000000000800000000000800000000000600000000000500000000000804270000000800020000000800020000000700000000000700000000000800000000000800000000000100000000000600000000000800000000000400000000000300000000000200000000000)
 (.leaf 900000000000300000000000000000000000000000000000000000000000600000000000800000000000600000000000000000000000400000000000006170100000600000000000600000000000813980621967800000000000500000000000700000000000500000000000218770000000000000000000000000000000714200000000100000000000800000000000400000000000200000000000600000000000400000000000819921421912600000000000500000000000216250621963100000000000600000000000119930612003600000000000500000000000500000000000200000000000700000000000900000000000300000000000500000000000500000000000100000000000800000000000800000000000600000000000500000000000500000000000000000000000300000000000800000000000800000000000700000000000800000000000800000000000400000000000800000000000400000000000100210000000600000000000400000000000600000000000))
 (.node 1 (.leaf 400000000000200000000000600000000000400000000000600000000000400000000000400000000000700000000000600000000000000000000000600000000000200000000000000000000000600000000000800000000000800000000000800000000000000000000000400000000000600000000000600000000000600000000000115110000000600000000000400000000000600000000000500000000000500000000000500000000000600000000000700000000000000000000000400000000000600000000000400000000000617480000000600000000000600000000000300000000000600000000000600000000000600000000000100000000000400000000000113940621965800000000000600000000000417500000000500000000000600000000000200000000000100000000000200000000000100000000000600000000000500000000000500000000000500000000000500000000000203670100000200000000000300000000000600000000000500000000000)
 (.leaf 500000000000500000000000800000000000800000000000600000000000400000000000800000000000400000000000600000000000600000000000200000000000600000000000800000000000700000000000600000000000400000000000000000000000400000000000400000000000400000000000600000000000900000000000800000000000800000000000600000000000200000000000300000000000416160611974800000000000813570000000600000000000013950000000003490100000000000000000100000000000400000000000800000000000200220000000300000000000400000000000000000000000600000000000200000000000600000000000600000000000400000000000317500621964615510621916200000000000500000000000400000000000600000000000400000000000500000000000500000000000813610000000619940000000200000000000600000000000500000000000500000000000600000000000900000000000400000000000)))))
 (.node 8 (.node 4 (.node 2 (.node 1 (.leaf 400000000000000000000000800000000000400000000000200000000000200000000000100000000000200000000000600000000000600000000000600000000000400000000000400000000000600000000000600000000000600000000000000000000000200000000000200000000000900000000000000000000000800000000000800000000000414430611964200000000000400000000000400000000000600000000000400220000000800000000000100000000000800000000000800000000000600000000000200000000000600000000000400000000000600000000000400000000000600000000000500000000000800000000000700000000000900000000000500000000000500000000000400000000000600000000000600000000000617820621996400000000000500000000000400000000000600000000000500000000000500000000000600000000000623120000000900000000000600000000000610320000000800000000000400000000000800000000000)
 (.leaf 800000000000400000000000402200000000600000000000600000000000200000000000200000000000100000000000100000000000400000000000600000000000800000000000000000000000000000000000300000000000100000000000400000000000400000000000900000000000600000000000400000000000600000000000200000000000416170000000500000000000700000000000413960000000000000000000400000000000800220000000200000000000600000000000600000000000200000000000218990000000200000000000800000000000800000000000400000000000800000000000200000000000500000000000500000000000700000000000819970611960100000000000121860611957900000000000500000000000500000000000200000000000700000000000500000000000400000000000500000000000216380611981801060100000500000000000900000000000800000000000700000000000600000000000400000000000000000000000))
 (.node 1 (.leaf 400000000000600000000000400000000000400000000000600000000000600000000000100000000000400000000000600000000000400000000000008970100000013090100000600000000000600000000000111970000000200000000000500000000000419960000000816420611934816410000000500000000000500000000000700000000000212970611927000000000000400000000000803951421988600000000000400000000000400000000000100000000000600000000000600000000000300000000000200000000000300000000000400000000000300000000000200000000000600000000000700000000000615460000000600000000000400000000000100000000000200000000000100000000000600000000000415550000000615600611982700000000000613880621974521540000000422050000000700000000000400000000000900000000000600000000000001060000000600000000000600000000000500000000000000000000000100000000000)
 (.leaf 400000000000400000000000800000000000700000000000400000000000800000000000000000000000600000000000600000000000600000000000600000000000600000000000600000000000000000000000900000000000000000000000000000000000100000000000116180621998500000000000200000000000100000000000400000000000400000000000603090000000000000000000000000000000800000000000800000000000900000000000600000000000400000000000100000000000100000000000600000000000500000000000316450621974616450000000500000000000500000000000500000000000600000000000500000000000800000000000400000000000616480611972400000000000723720622011400000000000400000000000200000000000200000000000900000000000500000000000400000000000200000000000400000000000600000000000600000000000600000000000800000000000800000000000800000000000800000000000)))
 (.node 2 (.node 1 (.leaf 800000000000000000000000400000000000800000000000600000000000500000000000100000000000500000000000400000000000800000000000800000000000900000000000300000000000800000000000900000000000900000000000900000000000813020621983119270000000200000000000100000000000600000000000900000000000800000000000900000000000500000000000700000000000400000000000600000000000500000000000500000000000500000000000220040621965400000000000800000000000600000000000800000000000116490621997600000000000600000000000800000000000400000000000700000000000416520611963400000000000400000000000003540100000600000000000700000000000300000000000900000000000000000000000400000000000600000000000300000000000800000000000100000000000220060621960300000000000500000000000400000000000500000000000200000000000108840100000)
 (.leaf 314220000000414840611955600000000000200000000000800000000000300000000000600000000000600000000000300000000000600000000000900000000000500000000000400000000000720070611989400000000000500000000000414910611960600000000000400000000000600000000000100000000000600000000000400440000000600000000000600000000000500000000000400000000000100000000000400000000000100000000000600000000000800000000000800000000000800000000000900000000000800000000000800000000000400000000000000000000000700000000000700000000000400000000000400000000000000000000000400000000000620080621960400000000000419380000000115420000000006580100000000000000000000000000000000000000000200000000000800000000000800000000000800000000000600000000000714710621965600000000000600000000000200000000000420150000000600000000000))
 (.node 1 (.leaf 500000000000400000000000400000000000400000000000600000000000500000000000400000000000002890100000400000000000100000000000220110611997400440000000700440000000200290000000500000000000400000000000800000000000700000000000700000000000800000000000100000000000000000000000800000000000700000000000400000000000700000000000002250100000600000000000600000000000900000000000800000000000700000000000600000000000600000000000615270611961200000000000100000000000216560622005500000000000421940611971400000000000000000000000100000000000300000000000800000000000600000000000200000000000900000000000600000000000600000000000811460000000900000000000800000000000400000000000700000000000420150000000800000000000700000000000417600000000617600000000418120611984600000000000500000000000400000000000)
 (.leaf 6560100000400000000000400000000000205430000000400000000000400000000000800000000000500000000000800000000000800000000000707000621956800000000000400000000000400000000000700000000000900000000000900000000000900000000000900000000000800000000000800000000000800000000000902330000000400000000000200000000000600000000000600000000000700000000000800000000000600000000000900000000000100000000000600000000000900000000000500000000000414390000000900000000000500000000000115740611942200000000000400000000000400000000000200000000000113830000000600000000000300000000000200000000000224220000000200000000000300000000000420180000000618360000000600000000000500000000000414800611969500000000000500000000000500000000000500000000000500000000000500000000000217860611989200000000000900000000000))))
 (.node 4 (.node 2 (.node 1 (.leaf 800000000000400000000000600000000000500000000000400000000000400000000000800000000000400000000000800000000000900000000000900000000000800000000000700000000000600000000000802330000000600000000000600000000000600000000000500000000000500000000000416570621986800000000000115380621954000000000000300000000000000000000000400000000000802050000000600000000000600000000000606300000000200000000000217580000000200000000000400000000000420300000000600000000000618360000000300000000000500000000000116440611995500000000000500000000000500000000000500000000000500000000000500000000000500000000000300000000000500000000000200000000000600000000000400000000000500000000000500000000000500000000000400000000000400000000000300000000000700000000000800000000000700000000000800000000000700000000000)
 (.leaf 400000000000200000000000600000000000800000000000800000000000800000000000800000000000600000000000800000000000600000000000600000000000900000000000400000000000000000000000600000000000200000000000300000000000600000000000600000000000400000000000600000000000200000000000800000000000900000000000900000000000500000000000114780621981500000000000900000000000400000000000400000000000800000000000400000000000615090621963600000000000300000000000800000000000400000000000120280621936100000000000300000000000219290621974900000000000800000000000700000000000900000000000500000000000500000000000500000000000200000000000408010000000816500000000700000000000800000000000200000000000600000000000700000000000400000000000400000000000700000000000700000000000800000000000600000000000800000000000))
 (.node 1 (.leaf 800000000000000000000000007800100000700000000000800000000000400000000000600000000000800000000000800000000000300000000000200000000000800000000000500000000000200000000000600000000000500000000000700000000000700000000000114740621953800000000000400000000000600000000000300000000000600000000000600000000000220320621952308620000000400000000000400000000000813970621951400000000000319230621963313600000000600000000000500000000000300000000000600000000000900000000000600000000000200000000000000000000000200000000000600000000000800000000000600000000000600000000000800000000000600000000000200000000000800000000000600000000000400000000000700000000000000000000000600000000000400000000000000000000000004590100000605480100000600000000000400000000000600000000000300000000000300000000000)
 (.leaf 316150611977400000000000216550611960215780000000500000000000500000000000500000000000000000000000400000000000400000000000300000000000200000000000600000000000600000000000200000000000400000000000100000000000420340000000718580621944300000000000500000000000500000000000500000000000500000000000800000000000800000000000600000000000000000000000400000000000600000000000500000000000400000000000823440622012600000000000200000000000300000000000100000000000300000000000100000000000200000000000600000000000900000000000400000000000600000000000200000000000200000000000200000000000300000000000008200100000005360100000010710100000400000000000600000000000000000000000000000000000000000000000004820100000605480000000300000000000806090100000600000000000400000000000600000000000200000000000)))
 (.node 2 (.node 1 (.leaf 400000000000600000000000600000000000500000000000600000000000218741421991400000000000200000000000500000000000400000000000000000000000600000000000213660000000200000000000600000000000800000000000400000000000000000000000600000000000206470000000217690000000807850000000200000000000417880621996800000000000900000000000000000000000600000000000400000000000200000000000600000000000500000000000500000000000800000000000900000000000600000000000600000000000200000000000100000000000700000000000800000000000200000000000100000000000800000000000400000000000700000000000900000000000400000000000600000000000000000000000000000000000012860100000000000000000600000000000600000000000405410000000003430100000300000000000600000000000100000000000602230100000200000000000600000000000600000000000)
 (.leaf 200000000000600000000000500000000000500000000000600000000000500000000000400000000000000000000000000000000000700000000000600000000000600000000000600000000000600000000000222090621974300000000000200000000000420380000000407720000000322680621962606380621930400000000000600000000000600000000000500000000000600000000000400000000000012320100000600000000000600000000000400000000000200000000000200000000000600000000000600000000000400000000000400000000000004460100000000000000000600000000000600000000000200000000000200000000000600000000000600000000000300000000000500000000000417610000000200000000000224210621992400000000000200000000000300000000000000000000000600000000000200000000000620420611923600000000000418550621954200000000000400000000000400000000000300000000000600000000000))
 (.node 1 (.leaf 500000000000500000000000800000000000800000000000800000000000400000000000900000000000800000000000900000000000600000000000400000000000500000000000000000000000800000000000600000000000900000000000600000000000900000000000900000000000700000000000600000000000400000000000400000000000200000000000200000000000200000000000900000000000400000000000400000000000000000000000000000000000203920000000600000000000800000000000600000000000400000000000600000000000100000000000300000000000615770000000600000000000300000000000500000000000400000000000100000000000600000000000600000000000320430621932600000000000200000000000200000000000214640621983200000000000220470621980800000000000200000000000200000000000900000000000700000000000500000000000400000000000800000000000600000000000200000000000)
 (.leaf 200000000000200000000000200000000000300000000000000000000000100000000000400000000000400000000000400000000000600000000000400000000000700000000000804050000000000000000000000000000000000000000000700000000000400000000000000000000000000000000000800000000000600000000000600000000000200000000000600000000000600000000000200000000000200000000000214670000000620540000000600000000000500000000000500000000000801520000000700000000000000000000000600000000000000000000000300000000000600000000000320510000000618500621914200000000000110820000000110820621965200000000000200000000000600000000000500000000000400000000000100000000000600000000000100000000000200000000000300000000000200000000000800000000000700000000000600000000000800000000000500000000000500000000000500000000000500000000000)))))))
 (.node 32 (.node 16 (.node 8 (.node 4 (.node 2 (.node 1 (.leaf 400000000000400000000000600000000000400000000000318490621970600000000000700000000000600000000000400000000000600000000000100000000000200000000000400000000000100000000000110690000000600000000000416620612000400000000000000000000000013300100000000000000000000000000000000000000000100000000000700000000000600000000000300000000000300000000000800000000000100000000000620540000000809920000000600000000000500000000000500000000000700000000000700000000000400000000000700000000000000000000000200000000000200000000000213040000000200000000000200000000000414810621953600000000000200000000000600000000000200000000000300000000000600000000000800000000000400000000000800000000000500000000000500000000000500000000000400000000000800000000000800000000000600000000000300000000000200000000000)
 (.leaf 600000000000800000000000100000000000600000000000600000000000600000000000000000000000000000000000000000000000000000000000200000000000600000000000400000000000300000000000224030622012200000000000224120622008200000000000818940000000924560622011600000000000400000000000614240000000810420000000600000000000500000000000500000000000500000000000501520000000500000000000400000000000800000000000800000000000000000000000800000000000214520000000614520000000620600621987600000000000400000000000300000000000600000000000300000000000300000000000800000000000400000000000200000000000500000000000300000000000200000000000500000000000500000000000600000000000400000000000200000000000600000000000424370622011600000000000800000000000200000000000200000000000200000000000100000000000600000000000))
 (.node 1 (.leaf 200000000000100000000000400000000000700000000000600000000000222310000000600000000000423070000000208040100000400000000000200000000000300000000000600000000000200000000000600000000000100000000000215800621958914100000000814830621958601710000000607360100000500000000000600000000000600000000000600000000000617670000000600000000000400000000000300000000000200000000000600000000000500000000000100000000000200000000000200000000000300000000000800000000000400000000000600000000000600000000000200000000000200000000000200000000000200000000000500000000000500000000000514280611901500000000000500000000000500000000000500000000000401810000000600000000000400000000000400000000000900000000000600000000000100000000000800000000000800000000000001390000000805100000000023100100000009930100000)
 (.leaf 200000000000600000000000600000000000400000000000624150000000220650000000215060621966200000000000600540000000500000000000500000000000800000000000800000000000600000000000200000000000100000000000200000000000100000000000100000000000200000000000600000000000400000000000600000000000600000000000600000000000200000000000800000000000100000000000900000000000800000000000200000000000200000000000200000000000800000000000800000000000800000000000700000000000400000000000900000000000900000000000900000000000900000000000600000000000417890000000800000000000400000000000200000000000700000000000400000000000200000000000600000000000600000000000200000000000100000000000400000000000200000000000422380000000800000000000601390000000821950000000702830000000600730000000200000000000300000000000)))
 (.node 2 (.node 1 (.leaf 400000000000600000000000300000000000800000000000823650000000900000000000500000000000400000000000200000000000200000000000700000000000700000000000800000000000200000000000300000000000400000000000614120000000200000000000200000000000505590000000500000000000200000000000200000000000400000000000100000000000300000000000600000000000400000000000600000000000800000000000800000000000100000000000600000000000400000000000600000000000600000000000000000000000600000000000200000000000600000000000900000000000800000000000800000000000400000000000318610611972100000000000400000000000400000000000400000000000800000000000400000000000200000000000200000000000100000000000100000000000400000000000200000000000600000000000800000000000200000000000900000000000300000000000300000000000600000000000)
 (.leaf 500000000000500000000000200000000000200000000000600000000000600000000000205720000000500000000000500000000000400000000000600000000000600000000000100000000000600000000000900000000000400000000000700000000000600000000000800000000000800000000000700000000000400000000000700000000000500000000000800000000000200000000000800000000000800000000000800000000000400000000000500000000000223400622007400000000000800000000000300000000000400000000000100000000000400000000000400000000000300000000000600000000000200000000000600000000000400000000000300000000000600000000000200000000000200000000000603510000000800000000000500000000000500000000000200000000000800000000000000000000000200000000000200000000000600000000000500000000000806890100000500000000000200000000000400000000000600000000000))
 (.node 1 (.leaf 400000000000800000000000700000000000800000000000700000000000700000000000600000000000800000000000800000000000800000000000700000000000700000000000700000000000600000000000900000000000400000000000620700611901600000000000900000000000800000000000900000000000000000000000000000000000000000000000000000000000600000000000400000000000400000000000400000000000100000000000200000000000200000000000300000000000200000000000200000000000200000000000600000000000611110621972500000000000500000000000400000000000600000000000000000000000600000000000300000000000500000000000500000000000100000000000200000000000300000000000200000000000100000000000200000000000400000000000900000000000800000000000800000000000900000000000800000000000700000000000800000000000700000000000600000000000800000000000)
 (.leaf 800000000000800000000000700000000000300000000000200000000000800000000000500000000000500000000000700000000000900000000000600000000000600000000000800000000000800000000000200000000000600000000000600000000000900000000000600000000000200000000000100000000000100000000000100000000000200000000000200000000000200000000000400000000000200000000000600000000000800000000000700000000000720721521998200000000000200000000000823860622004400000000000400000000000920740000000600000000000500000000000500000000000200000000000200000000000800000000000600000000000100000000000502170100000500000000000200000000000400000000000800000000000400000000000300000000000200000000000200000000000300000000000200000000000800000000000900000000000600000000000400000000000000000000000400000000000500000000000))))
 (.node 4 (.node 2 (.node 1 (.leaf 500000000000500000000000900000000000600000000000300000000000600000000000400000000000700000000000200000000000600000000000400000000000800000000000400000000000800000000000700000000000600000000000100000000000200000000000200000000000100000000000400000000000200000000000600000000000600000000000300000000000200000000000600000000000400000000000600000000000400000000000620740000000400000000000200000000000200000000000000000000000000000000000000000000000300000000000218851421964400000000000600000000000200000000000300000000000400000000000900000000000400000000000600000000000800000000000600000000000400000000000400000000000600000000000400000000000500000000000500000000000800000000000600000000000400000000000600000000000200000000000200000000000800000000000400000000000600000000000)
 (.leaf 300000000000400000000000300000000000200000000000200000000000800000000000600000000000600000000000400000000000615230000000615840000000400000000000200000000000500000000000200000000000100000000000600000000000200000000000000000000000600000000000600000000000500000000000100000000000400000000000400000000000600000000000800000000000600000000000400000000000400000000000900000000000600000000000400000000000600000000000400000000000200000000000400000000000700000000000900000000000600000000000600000000000600000000000500000000000400000000000100000000000200000000000200000000000400000000000800000000000700000000000700000000000200000000000600000000000200000000000100000000000200000000000200000000000200000000000200000000000400000000000600000000000300000000000600000000000600000000000))
 (.node 1 (.leaf 600000000000200000000000400000000000800000000000800000000000600000000000600000000000400000000000600000000000400000000000300000000000600000000000200000000000200000000000200000000000600000000000200000000000400000000000600000000000800000000000400000000000400000000000800000000000500000000000600000000000800000000000600000000000600000000000600000000000500000000000200000000000200000000000300000000000200000000000400000000000700000000000600000000000300000000000300000000000200000000000200000000000200000000000300000000000800000000000600000000000800000000000800000000000424160000000600000000000400000000000615960621980500000000000500000000000300000000000600000000000000000000000900000000000400000000000200000000000600000000000400000000000800000000000800000000000600000000000)
 (.leaf 400000000000600000000000900000000000900000000000700000000000800000000000800000000000300000000000500000000000500000000000300000000000800000000000600000000000200000000000200000000000200000000000400000000000300000000000400000000000400000000000620790000000600000000000400000000000800000000000900000000000715850621969600000000000800000000000100000000000618530621975500000000000700000000000200000000000400000000000600000000000600000000000500000000000517720621978800000000000400000000000200000000000200000000000200000000000400000000000200000000000200000000000600000000000600000000000800000000000800000000000800000000000900000000000800000000000800000000000600000000000800000000000600000000000800000000000600000000000200000000000800000000000700000000000500000000000400000000000)))
 (.node 2 (.node 1 (.leaf 600000000000800000000000600000000000700000000000500000000000200000000000200000000000200000000000400000000000400000000000400000000000600000000000800000000000200000000000800000000000200000000000800000000000200000000000200000000000600000000000600000000000600000000000816030621992400000000000600000000000400000000000500000000000917700621994300000000000518380000000300000000000200000000000200000000000200000000000300000000000800000000000400000000000700000000000700000000000900000000000800000000000600000000000600000000000600000000000900000000000600000000000400000000000500000000000500000000000400000000000600000000000800000000000800000000000900000000000600000000000500000000000800000000000500000000000500000000000600000000000100000000000400000000000600000000000800000000000)
 (.leaf 200000000000200000000000100000000000600000000000300000000000800000000000600000000000315910000000800000000000300000000000200000000000300000000000316660611972500000000000500000000000400000000000800000000000800000000000000000000000000000000000600000000000600000000000100000000000200000000000200000000000700000000000200000000000700000000000600000000000800000000000600000000000600000000000600000000000400000000000600000000000800000000000800000000000800000000000300000000000400000000000400000000000500000000000100000000000300000000000200000000000600000000000800000000000500000000000200000000000600000000000800000000000600000000000900000000000300000000000400000000000204840000000100000000000100000000000800000000000200000000000600000000000200000000000200000000000800000000000))
 (.node 1 (.leaf 100000000000200000000000800000000000400000000000600000000000500000000000800000000000800000000000600000000000200000000000400000000000700000000000700000000000800000000000300000000000800000000000600000000000600000000000600000000000400000000000800000000000800000000000600000000000400000000000400000000000500000000000700000000000400000000000800000000000700000000000900000000000600000000000500000000000500000000000500000000000500000000000100000000000100000000000216670000000700000000000400000000000616760000000200000000000800000000000600000000000200000000000200000000000600000000000200000000000113710621975500000000000200000000000900000000000200000000000200000000000400000000000900000000000800000000000600000000000400000000000100000000000400000000000400000000000400000000000)
 (.leaf 600000000000600000000000800000000000800000000000800000000000800000000000900000000000400000000000100000000000800000000000700000000000500000000000500000000000900000000000600000000000200000000000800000000000400000000000500000000000500000000000500000000000400000000000400000000000800000000000900000000000920820000000700000000000700000000000620850611976600000000000200000000000400000000000100000000000200000000000300000000000800000000000500000000000500000000000500000000000200000000000000000000000600000000000500000000000500000000000500000000000500000000000700000000000100000000000400000000000400000000000300000000000200000000000300000000000100000000000200000000000800000000000800000000000400000000000200000000000800000000000900000000000600000000000800000000000600000000000)))))
 (.node 8 (.node 4 (.node 2 (.node 1 (.leaf 400000000000800000000000300000000000300000000000600000000000400000000000400000000000300000000000300000000000600000000000400000000000100000000000800000000000800000000000800000000000816720000000800000000000800000000000200000000000214450000000200000000000700000000000200000000000400000000000224550000000300000000000200000000000400000000000510110000000200000000000600000000000600000000000400000000000400000000000600000000000800000000000600000000000400000000000100000000000100000000000100000000000400000000000300000000000200000000000300000000000200000000000200000000000200000000000600000000000500000000000500000000000800000000000300000000000200000000000600000000000800000000000600000000000400000000000200000000000200000000000500000000000500000000000800000000000400000000000)
 (.leaf 616750621990600000000000200000000000200000000000500000000000102780000000400000000000200000000000600000000000800000000000500000000000500000000000500000000000400000000000200000000000000000000000300000000000500000000000500000000000100000000000600000000000400000000000200000000000900000000000800000000000400000000000400000000000400000000000100000000000600000000000300000000000300000000000200000000000800000000000700000000000900000000000800000000000600000000000400000000000900000000000900000000000800000000000819370000000400000000000400000000000800000000000200000000000600000000000600000000000600000000000400000000000200000000000100000000000300000000000200000000000600000000000600000000000100000000000806980611975616730000000200000000000200000000000500000000000400000000000))
 (.node 1 (.leaf 200000000000200000000000318800621971120930000000100000000000100000000000600000000000500000000000500000000000500000000000500000000000500000000000507040100000400000000000200000000000200000000000400000000000600000000000200000000000200000000000100000000000700000000000800000000000600000000000600000000000800000000000700000000000100000000000800000000000200000000000600000000000400000000000400000000000200000000000400000000000316680611965823450000000100000000000220910611990300000000000500000000000800000000000200000000000200000000000200000000000300000000000800000000000520870000000500000000000120880000000200000000000500000000000500000000000400000000000200000000000700000000000522060000000500000000000100000000000400000000000300000000000200000000000200000000000400000000000)
 (.leaf 400000000000200000000000100000000000400000000000400000000000400000000000800000000000600000000000700000000000600000000000800000000000800000000000400000000000500000000000100000000000600000000000600000000000700000000000200000000000900000000000500000000000500000000000220940611993800000000000500000000000200000000000200000000000224540000000400000000000818050621994500000000000800000000000400000000000600000000000500000000000400000000000505860722011500000000000500000000000100000000000200000000000200000000000400000000000700000000000200000000000200000000000100000000000100000000000100000000000400000000000700000000000700000000000400000000000600000000000400000000000200000000000200000000000800000000000800000000000300000000000200000000000900000000000400000000000900000000000)))
 (.node 2 (.node 1 (.leaf 600000000000900000000000900000000000800000000000800000000000800000000000800000000000500000000000400000000000400000000000200000000000800000000000600000000000200000000000800000000000400000000000200000000000618890000000800000000000500000000000500000000000800000000000600000000000600000000000700000000000600000000000100000000000600000000000600000000000200000000000200000000000200000000000300000000000300000000000400000000000600000000000600000000000600000000000400000000000400000000000400000000000500000000000500000000000800000000000800000000000500000000000916690611969600000000000900000000000400000000000223760622005400000000000300000000000600000000000500000000000500000000000600000000000200000000000400000000000000000000000500000000000400000000000600000000000500000000000)
 (.leaf 100000000000100000000000100000000000400000000000800000000000800000000000800000000000800000000000700000000000800000000000800000000000900000000000400000000000200000000000300000000000300000000000200000000000200000000000800000000000300000000000600000000000600000000000400000000000100000000000600000000000600000000000800000000000200000000000600000000000500000000000600000000000600000000000900000000000800000000000600000000000600000000000400000000000600000000000300000000000616910611982200000000000900000000000200000000000500000000000900000000000900000000000323800000000800000000000500000000000100000000000200000000000000000000000500000000000600000000000700000000000500000000000400000000000600000000000100000000000200000000000200000000000200000000000100000000000600000000000))
 (.node 1 (.leaf 200000000000400000000000200000000000400000000000400000000000600000000000100000000000900000000000600000000000400000000000223740000000400000000000500000000000900000000000900000000000600000000000800000000000600000000000500000000000500000000000916860000000400000000000200000000000500000000000200000000000224390622011623800622010517000000000500000000000200000000000200000000000200000000000600000000000500000000000800000000000712050100000217750000000400000000000800000000000200000000000200000000000800000000000400000000000300000000000600000000000600000000000200000000000200000000000400000000000600000000000600000000000800000000000400000000000500000000000400000000000800000000000600000000000200000000000800000000000400000000000600000000000500000000000300000000000300000000000)
 (.leaf 600000000000416980611985300000000000500000000000200000000000200000000000300000000000200000000000500000000000500000000000500000000000603390611955508130100000400000000000500000000000500000000000500000000000500000000000700000000000700000000000200000000000200000000000200000000000600000000000800000000000800000000000900000000000400000000000200000000000400000000000600000000000400000000000400000000000300000000000200000000000200000000000400000000000300000000000400000000000200000000000400000000000400000000000000000000000400000000000800000000000800000000000800000000000800000000000800000000000500000000000500000000000300000000000600000000000616940611985500000000000600000000000400000000000800000000000800000000000600000000000800000000000800000000000800000000000600000000000))))
 (.node 4 (.node 2 (.node 1 (.leaf 200000000000100000000000400000000000600000000000300000000000400000000000200000000000100000000000400000000000600000000000600000000000400000000000400000000000600000000000600000000000400000000000500000000000100000000000600000000000800000000000800000000000800000000000800000000000800000000000200000000000421000621977800000000000600000000000723460622010400000000000500000000000400000000000621020000000800000000000400000000000600000000000400000000000100000000000400000000000200000000000400000000000800000000000200000000000300000000000400000000000600000000000700000000000000000000000200000000000900000000000500000000000100000000000600000000000800000000000900000000000800000000000900000000000800000000000800000000000500000000000400000000000600000000000200000000000221010000000)
 (.leaf 500000000000200000000000500000000000200000000000400000000000500000000000500000000000500000000000200000000000400000000000600000000000800000000000300000000000400000000000200000000000200000000000400000000000100000000000600000000000600000000000400000000000200000000000400000000000400000000000800000000000400000000000400000000000600000000000700000000000500000000000500000000000900000000000900000000000200000000000500000000000307840100000200000000000400000000000700000000000604540000000500000000000500000000000912540000000800000000000500000000000500000000000400000000000405960611988400000000000600000000000600000000000800000000000100000000000600000000000200000000000600000000000600000000000400000000000400000000000600000000000800000000000800000000000800000000000900000000000))
 (.node 1 (.leaf 800000000000500000000000500000000000200000000000600000000000500000000000616890000000300000000000200000000000400000000000200000000000500000000000500000000000801720000000601820000000500000000000522110000000500000000000400000000000400000000000800000000000700000000000700000000000000000000000403970100000600000000000200000000000400000000000900000000000800000000000800000000000400000000000800000000000600000000000800000000000500000000000800000000000600000000000500000000000614720000000700000000000300000000000600000000000200000000000200000000000600000000000800000000000600000000000600000000000400000000000000000000000700000000000300000000000600000000000400000000000200000000000100000000000900000000000900000000000200000000000800000000000400000000000400000000000800000000000)
 (.leaf 800000000000400000000000700000000000500000000000400000000000900000000000500000000000500000000000300000000000600000000000317920000000500000000000500000000000200000000000500000000000600000000000913651421964813650000000600000000000200000000000700000000000700000000000400000000000700000000000400000000000600000000000600000000000300000000000200000000000100000000000400000000000100000000000600000000000200000000000200000000000400000000000400000000000900000000000300000000000600000000000600000000000400000000000700000000000500000000000400000000000900000000000800000000000300000000000500000000000500000000000500000000000600000000000800000000000800000000000423470622015500000000000200000000000619220000000300000000000512370000000400000000000700000000000200000000000800000000000)))
 (.node 2 (.node 1 (.leaf 800000000000200000000000100000000000100110000000600000000000400000000000400000000000300000000000800000000000600000000000800000000000600000000000800000000000400000000000700000000000500000000000400000000000600000000000500000000000800000000000900000000000900000000000500000000000600000000000400000000000100000000000117150612001500000000000500000000000100000000000900000000000300000000000400000000000200000000000800000000000400000000000600000000000600000000000800000000000400000000000400000000000100000000000100000000000600000000000200000000000800000000000600000000000400000000000400000000000500000000000200000000000200000000000811710000000617070611910600000000000600000000000300000000000400000000000600000000000500000000000500000000000500000000000600000000000700000000000)
 (.leaf 600000000000200000000000600000000000900000000000100000000000600000000000400000000000400000000000700000000000500000000000500000000000300000000000200000000000503480000000300000000000400000000000600000000000500000000000900000000000600000000000400000000000100000000000700000000000800000000000800000000000700000000000200000000000600000000000800000000000600000000000400000000000400000000000200000000000200000000000200000000000400000000000700000000000800000000000800000000000500000000000500000000000500000000000217090000000300000000000600000000000500000000000500000000000800000000000400000000000301360100000600000000000400000000000800000000000800000000000700000000000600000000000900000000000900000000000400000000000700000000000700000000000700000000000900000000000800000000000))
 (.node 1 (.leaf 800000000000400000000000200000000000300000000000200000000000800000000000400000000000700000000000700000000000000000000000500000000000500000000000900000000000400000000000800000000000500000000000200180000000507280000000400000000000400000000000300000000000600000000000400000000000600000000000600000000000800000000000200000000000400000000000300000000000200000000000800000000000600000000000400000000000400000000000800480000000300000000000000000000000500000000000500000000000300000000000400000000000200000000000423840622009500000000000800000000000500000000000500000000000500000000000400000000000600000000000923240622017600000000000618190621984400000000000800000000000403580611974900000000000200000000000900000000000400000000000400000000000300000000000200000000000100000000000)
 (.leaf 200000000000200000000000200000000000200000000000600000000000802030000000400000000000400000000000500000000000500000000000400000000000500000000000617110000000600000000000200000000000822330100000500000000000500000000000100000000000117030611999800000000000800000000000900000000000800000000000800000000000800000000000800000000000400000000000200000000000200000000000400000000000800000000000100000000000800000000000800000000000200000000000400000000000600000000000200000000000400000000000900000000000500000000000600000000000500000000000400000000000600000000000500000000000600000000000500000000000500000000000500000000000500000000000100000000000600000000000500000000000800000000000503870100000600000000000500000000000500000000000900000000000800000000000800000000000300000000000))))))
 (.node 16 (.node 8 (.node 4 (.node 2 (.node 1 (.leaf 200000000000600000000000400000000000300000000000200000000000400000000000100000000000600000000000200000000000600000000000400000000000400000000000100000000000800000000000800000000000900000000000500000000000500000000000700000000000800000000000200000000000600000000000417120611967500000000000500000000000500000000000500000000000500000000000500000000000400000000000200000000000400000000000600000000000500000000000500000000000200000000000400000000000800000000000700000000000800000000000200000000000400000000000200000000000800000000000900000000000200000000000200000000000400000000000400000000000100000000000700000000000600000000000800000000000400000000000400000000000804640000000400000000000400000000000800000000000700000000000200000000000500000000000504260000000300000000000)
 (.leaf 600000000000600000000000500000000000500000000000300000000000200000000000200000000000207470611957100000000000800000000000600000000000500000000000100000000000200000000000800000000000800000000000600000000000200000000000200000000000600000000000200000000000100000000000800000000000800000000000700000000000400000000000900000000000600000000000400000000000800000000000800000000000623340000000600000000000600000000000600000000000400000000000500000000000500000000000500000000000900000000000900000000000800000000000322070000000622070000000200000000000600000000000600000000000200000000000200000000000800000000000100000000000200000000000300000000000300000000000300000000000400000000000600000000000800000000000800000000000600000000000400000000000200000000000300000000000200000000000))
 (.node 1 (.leaf 200000000000200000000000300000000000300000000000600000000000500000000000600000000000500000000000600000000000800000000000500000000000500000000000500000000000500000000000500000000000400000000000800000000000800000000000300000000000300000000000200000000000200000000000800000000000700000000000200000000000400000000000200000000000300000000000200000000000200000000000900000000000400000000000600000000000800000000000700000000000800000000000700000000000600000000000800000000000800000000000900000000000400000000000800000000000600000000000300000000000600000000000300000000000500000000000500000000000500000000000503960100000800000000000500000000000817170622000317180000000609000000000600000000000800000000000100000000000100000000000100000000000800000000000900000000000300000000000)
 (.leaf 200000000000700000000000700000000000600000000000400000000000200000000000100000000000200000000000900000000000600000000000900000000000800000000000700000000000022400100000600000000000100000000000300000000000500000000000500000000000921140000000510380100000400000000000800000000000600000000000600000000000600000000000600000000000200000000000900000000000100000000000400000000000200000000000200000000000200000000000900000000000800000000000800000000000900000000000600000000000400000000000200000000000700000000000800000000000400000000000600000000000300000000000600000000000200000000000200000000000300000000000500000000000513730000000500000000000501350100000501350000000500000000000500000000000600000000000800000000000600000000000300000000000100000000000100000000000600200000000)))
 (.node 2 (.node 1 (.leaf 300000000000200000000000203640000000200000000000100000000000200000000000100000000000400000000000800000000000300000000000104350000000800000000000100000000000400000000000200000000000900000000000400000000000200000000000101290000000200000000000200000000000100000000000600000000000500000000000500000000000700000000000600000000000700000000000800000000000200000000000800000000000100000000000200000000000200000000000200000000000300000000000100000000000200000000000600000000000600000000000800000000000200000000000200000000000200000000000100000000000800000000000900000000000600000000000300000000000300000000000200000000000600000000000600000000000500000000000500000000000500000000000814850000000600000000000800000000000900000000000800000000000600000000000600000000000400000000000)
 (.leaf 500000000000300000000000200000000000200000000000200000000000200000000000400000000000400000000000100000000000200000000000200000000000300000000000300000000000200000000000800000000000900000000000400000000000600000000000600000000000600000000000200000000000500000000000500000000000500000000000500000000000600000000000200000000000300000000000600000000000600000000000900000000000400000000000100000000000600000000000800000000000518240000000500000000000500000000000500000000000500000000000400000000000200000000000300000000000600000000000400000000000700000000000800000000000800000000000800000000000700000000000400000000000600000000000600000000000500000000000500000000000206460000000600000000000603230000000600000000000600000000000100000000000321180611989600000000000600000000000))
 (.node 1 (.leaf 700000000000700000000000800000000000800000000000818240621994500000000000500000000000500000000000500000000000200000000000500000000000500000000000100000000000400000000000200000000000300000000000300000000000100000000000100000000000800000000000800000000000600000000000200000000000100000000000100000000000600000000000900000000000500000000000800000000000600000000000700000000000700000000000800000000000200000000000200000000000800000000000821170000000800000000000800000000000500000000000500000000000500000000000600000000000300000000000100000000000400000000000100000000000700000000000800000000000200000000000800000000000200000000000200000000000300000000000500000000000200000000000300000000000500000000000500000000000500000000000900000000000300000000000900000000000900000000000)
 (.leaf 600000000000100000000000200000000000300000000000200000000000800000000000400000000000400000000000400000000000200000000000100000000000400000000000800000000000600000000000500000000000800000000000500000000000400000000000200000000000500000000000800000000000600000000000700000000000100000000000800000000000800000000000800000000000400000000000600000000000400000000000600000000000500000000000400000000000400000000000600000000000300000000000600000000000400000000000700000000000400000000000400000000000200000000000500000000000200000000000500000000000700000000000500000000000500000000000917220611985300000000000200000000000400000000000600000000000400000000000800000000000500000000000500000000000300000000000200000000000700000000000400000000000400000000000700000000000400000000000))))
 (.node 4 (.node 2 (.node 1 (.leaf 200000000000800000000000700000000000200000000000200000000000300000000000500000000000601200100000500000000000200000000000423480000000600000000000923280622015200000000000600000000000600000000000400000000000300000000000800000000000600000000000700000000000900000000000600000000000400000000000200000000000100000000000700000000000400000000000200000000000200000000000200000000000900000000000800000000000423480000000600000000000400000000000300000000000600000000000200000000000900000000000600000000000200000000000700000000000400000000000900000000000800000000000200000000000300000000000600000000000200000000000300000000000809850000000400000000000200000000000200000000000200000000000400000000000400000000000100000000000400250000000402410000000408050000000817940621991800000000000)
 (.leaf 800000000000500000000000400000000000900000000000600000000000500000000000500000000000500000000000300000000000600000000000200000000000800000000000600000000000200000000000100000000000100000000000300000000000200000000000200000000000300000000000400000000000400000000000400000000000900000000000800000000000800000000000600000000000400000000000900000000000500000000000500000000000418250000000200000000000200000000000500000000000800000000000300000000000600000000000600000000000600000000000200000000000200000000000300000000000100000000000200000000000200000000000500000000000200000000000100000000000200000000000400000000000300000000000300000000000400000000000800000000000800000000000400000000000800000000000200000000000600000000000600000000000600000000000400000000000600000000000))
 (.node 1 (.leaf 300000000000500000000000500000000000500000000000500000000000400000000000300000000000600000000000600000000000200000000000200000000000200000000000200000000000200000000000300000000000400000000000600000000000400000000000400000000000700000000000800000000000400000000000600000000000800000000000600000000000500000000000400000000000200000000000500000000000700000000000300000000000900000000000600000000000300000000000200000000000200000000000500000000000500000000000200000000000600000000000400000000000800000000000418660000000600000000000500000000000400000000000600000000000500000000000500000000000100000000000600000000000300000000000200000000000600000000000600000000000800000000000200000000000500000000000500000000000500000000000500000000000500000000000800000000000400000000000)
 (.leaf 600000000000418660000000012290100000621190621980600000000000600000000000612400100000500000000000400000000000800000000000100000000000500000000000500000000000500000000000600000000000600000000000200000000000200000000000200000000000600000000000900000000000600000000000318260000000300000000000500000000000800000000000700000000000400000000000100000000000400000000000800000000000418660000000100000000000200000000000300000000000600000000000500000000000600000000000500000000000100000000000300000000000200000000000200000000000400000000000500000000000200000000000100000000000300000000000600000000000600000000000600000000000222730000000400000000000400000000000900000000000600000000000800000000000700000000000300000000000800000000000300000000000600000000000500000000000500000000000)))
 (.node 2 (.node 1 (.leaf 200000000000200000000000500000000000400000000000400000000000200000000000500000000000500000000000500000000000400000000000200000000000300000000000800000000000500000000000500000000000400000000000800000000000800000000000700000000000700000000000800000000000700000000000400000000000400550000000918660000000400000000000500000000000600000000000600000000000500000000000500000000000100000000000100000000000500000000000608540100000500000000000500000000000500000000000500000000000600000000000300000000000200000000000300000000000600000000000600000000000800000000000200000000000900000000000600000000000622730000000800000000000900000000000500000000000500000000000503590000000100000000000200000000000600000000000400000000000700000000000400000000000400000000000922250000000800000000000)
 (.leaf 600000000000600000000000500000000000200000000000500000000000402470100000500000000000500000000000500000000000200000000000300000000000600000000000606230000000600000000000700000000000800000000000800000000000500000000000400000000000100000000000900000000000400000000000800000000000200000000000200000000000818660000000000000000000200000000000600000000000500000000000500000000000500000000000200000000000500000000000500000000000500000000000200000000000800000000000900000000000403340000000800000000000600000000000900000000000800000000000800000000000800000000000400000000000800000000000200000000000400000000000800000000000300000000000300000000000600000000000600000000000800000000000800000000000600000000000500000000000500000000000809370100000400000000000500000000000400000000000))
 (.node 1 (.leaf 200000000000300000000000600000000000800000000000600000000000800000000000700000000000800000000000800000000000813810000000600000000000500000000000400000000000400000000000800000000000800000000000600000000000900000000000600000000000500000000000600000000000113120000000600000000000800000000000900000000000600000000000400000000000700000000000900000000000800000000000500000000000100000000000800000000000800000000000800000000000800000000000800000000000800000000000400000000000400000000000000000000000000000000000500000000000500000000000500000000000500000000000200000000000200000000000200000000000800000000000600000000000900000000000800000000000900000000000600000000000900000000000900000000000600000000000700000000000800000000000700000000000900000000000800000000000821210621981)
 (.leaf 700000000000600000000000400000000000400000000000800000000000400000000000400000000000600000000000400000000000100000000000000000000000600000000000500000000000400000000000400000000000400000000000700000000000400000000000600000000000300000000000900000000000600000000000400000000000800000000000800000000000800000000000400000000000900000000000900000000000600000000000400000000000400000000000800000000000600000000000700000000000300000000000200000000000500000000000500000000000500000000000200000000000400000000000500000000000500000000000500000000000700000000000800000000000600000000000900000000000600000000000300000000000800000000000800000000000800000000000800000000000600000000000400000000000300000000000600000000000800000000000800000000000700000000000700000000000400000000000)))))
 (.node 8 (.node 4 (.node 2 (.node 1 (.leaf 300000000000500000000000500000000000500000000000200000000000100000000000300000000000300000000000200000000000500000000000500000000000400000000000200000000000800000000000900000000000800000000000800000000000800000000000600000000000200000000000600000000000700000000000500000000000400000000000800000000000800000000000900000000000600050000000400050000000100000000000600000000000500000000000821220621988500000000000600000000000200000000000600000000000500000000000400000000000600000000000800000000000600000000000300000000000900000000000800000000000800000000000800000000000600000000000423180000000621880000000214930000000800000000000600000000000400000000000300000000000600000000000900000000000200000000000200000000000600000000000200000000000300000000000500000000000400000000000)
 (.leaf 600000000000600000000000800000000000800000000000800000000000800000000000800000000000600000000000600000000000821240611959400000000000800000000000100000000000500000000000800000000000800000000000800000000000100000000000200000000000600000000000200000000000600000000000500000000000500000000000200000000000500000000000600000000000900000000000900000000000600000000000800000000000800000000000800000000000800000000000800000000000700000000000600000000000800000000000800000000000700000000000300000000000200000000000214080611958600000000000400000000000800000000000900000000000700000000000200000000000600000000000900000000000500000000000500000000000100000000000500000000000400000000000900000000000700000000000800000000000400000000000100000000000800000000000600000000000900000000000))
 (.node 1 (.leaf 800000000000200000000000600000000000400000000000200000000000800000000000800000000000800000000000800000000000822220000000900310000000121550100000800000000000800000000000500000000000800000000000100000000000600000000000600000000000600000000000800000000000400000000000400000000000600000000000800000000000400000000000800000000000200000000000800000000000200000000000600000000000900000000000500000000000500000000000400000000000500000000000800000000000600000000000600000000000800000000000600000000000800000000000800000000000800000000000800000000000900000000000900000000000600000000000400000000000800000000000600000000000600000000000300000000000200000000000500000000000800000000000800000000000600000000000600000000000400000000000300000000000600070000000900000000000800000000000)
 (.leaf 500000000000800000000000500000000000800000000000400000000000600000000000900000000000800000000000800000000000800000000000600000000000800000000000400000000000400000000000600000000000600000000000800000000000400000000000700000000000800000000000800000000000800000000000400000000000900000000000300000000000400000000000400000000000900000000000600000000000500000000000500000000000500000000000400000000000900000000000900000000000600000000000900000000000400000000000600000000000600000000000800000000000800000000000800000000000800000000000600000000000500000000000700000000000700000000000800000000000800000000000800000000000805280000000222860000000200000000000600000000000400000000000318840000000800000000000400000000000600000000000600000000000400000000000200000000000600000000000)))
 (.node 2 (.node 1 (.leaf 400000000000800000000000400000000000600000000000800000000000900000000000423220000000600000000000800000000000700000000000500000000000400000000000100000000000900000000000122860000000400000000000800000000000200000000000200000000000200000000000500000000000500000000000100000000000600000000000600000000000800000000000800000000000900000000000400000000000600000000000600000000000300000000000400000000000700000000000800000000000800000000000700000000000900000000000600000000000600000000000200000000000800000000000600000000000400000000000400000000000500000000000500000000000800000000000400000000000100000000000800000000000800000000000800000000000800000000000100000000000600000000000600000000000200000000000600000000000100000000000300000000000300000000000400000000000800000000000)
 (.leaf 900000000000500000000000400000000000500000000000100000000000900000000000200000000000100000000000900000000000800000000000900000000000800000000000400000000000800000000000600000000000400000000000400000000000900000000000300000000000100000000000100000000000200000000000800000000000700000000000600000000000800000000000600000000000500000000000500000000000800000000000800000000000800000000000700000000000700000000000800000000000800000000000500000000000700000000000900000000000600000000000800000000000800000000000800000000000900000000000400000000000800000000000400000000000600000000000500000000000400000000000107990611974207990000000200000000000900000000000200000000000600000000000200000000000600000000000600000000000600000000000400000000000500000000000500000000000400000000000))
 (.node 1 (.leaf 400000000000600000000000700000000000400000000000600000000000803600100000800000000000800000000000900000000000800000000000900000000000400000000000600000000000300000000000600000000000700000000000300000000000600000000000200000000000400000000000200000000000214890621950100000000000800000000000600000000000500000000000500000000000500000000000500000000000500000000000200000000000600000000000200000000000200000000000900000000000800000000000600000000000900000000000700000000000800000000000700000000000818280000000700000000000400000000000900000000000600000000000800000000000400000000000400000000000200000000000200000000000200000000000800000000000400000000000200000000000200000000000800070000000900000000000600000000000500000000000600000000000500000000000400000000000800000000000)
 (.leaf 200000000000900000000000900000000000800000000000400000000000400000000000200000000000100000000000417970622005600000000000600000000000800000000000600000000000400000000000800000000000500000000000500000000000600000000000200000000000200000000000600000000000400000000000400000000000600000000000400000000000500000000000600000000000800000000000500000000000400000000000400000000000800000000000100000000000200000000000100000000000200170000000600000000000800000000000800000000000400000000000600000000000800000000000900000000000400000000000200000000000200000000000500000000000300000000000100000000000600000000000600000000000200000000000200000000000300000000000200000000000100000000000001920100000800000000000300000000000500000000000100000000000600000000000500000000000500000000000))))
 (.node 4 (.node 2 (.node 1 (.leaf 800000000000800000000000500000000000400000000000800000000000600170000000800000000000600000000000700000000000700000000000800000000000812900000000600000000000600000000000700000000000817310000000600000000000800000000000200000000000200000000000200000000000600000000000200000000000800000000000200000000000300000000000500000000000500000000000500000000000500000000000800000000000800000000000800000000000800000000000800000000000900000000000800000000000600000000000500000000000400000000000500000000000200000000000100000000000600170000000900000000000800000000000600000000000200000000000400000000000200000000000200000000000800000000000700000000000623170000000200000000000600000000000800000000000500000000000400000000000100000000000200000000000200000000000600000000000100000000000)
 (.leaf 800000000000800000000000800000000000300000000000300000000000800000000000700000000000500000000000400000000000800000000000800000000000200000000000400000000000800000000000800000000000700000000000900000000000600000000000200000000000200000000000500000000000600000000000200000000000200000000000900000000000900000000000200000000000500000000000400000000000500000000000400000000000700000000000200000000000800000000000800000000000900000000000800000000000900000000000800000000000500000000000500000000000400000000000700000000000600000000000800000000000700000000000800000000000400000000000400000000000900000000000300000000000200000000000200000000000100000000000400000000000900000000000600000000000200000000000600000000000200000000000200000000000600000000000200000000000500000000000))
 (.node 1 (.leaf 500000000000800000000000607080100000400000000000200000000000700000000000600000000000400000000000700000000000400000000000500000000000500000000000300000000000300000000000800000000000700000000000900000000000800000000000800000000000400000000000300000000000300000000000600000000000800000000000800000000000800000000000800000000000600000000000600000000000500000000000600000000000400000000000600000000000600000000000400000000000600000000000600000000000400000000000900000000000500000000000800000000000600000000000402970000000600000000000500000000000400000000000700000000000500000000000500000000000500000000000800000000000900000000000800000000000600000000000400000000000300000000000600000000000300000000000500000000000100000000000600000000000400000000000600000000000100000000000)
 (.leaf 800000000000800000000000700000000000200000000000300000000000900000000000700000000000500000000000500000000000800000000000600000000000600000000000700000000000300000000000500000000000500000000000400000000000600000000000100000000000600000000000600000000000400000000000400000000000300000000000700000000000901450000000700000000000600000000000600000000000500000000000600000000000400000000000600000000000600000000000400000000000800000000000400000000000200000000000200000000000200000000000500000000000500000000000400000000000700000000000200000000000600000000000500000000000800000000000800000000000800000000000800000000000600000000000800000000000400000000000900000000000700000000000800000000000800000000000200000000000400000000000401040000000600000000000600000000000600000000000)))
 (.node 2 (.node 1 (.leaf 100000000000300000000000400000000000417300000000600000000000400000000000800000000000800000000000600000000000400000000000200000000000400000000000700000000000700000000000100000000000500000000000400000000000400000000000800000000000800000000000800000000000400000000000800000000000600000000000800000000000400000000000500000000000600000000000200000000000200000000000700000000000900000000000700000000000600000000000600000000000400000000000100000000000600000000000700000000000200000000000400000000000800000000000600000000000600000000000400000000000600000000000500000000000500000000000400000000000100000000000700000000000100000000000500000000000200000000000300000000000600000000000300000000000600000000000400000000000400000000000900000000000800000000000800000000000900000000000)
 (.leaf 500000000000400000000000600000000000600000000000200000000000300000000000213770000000213770000000500000000000400000000000700000000000400000000000500000000000400000000000800000000000800000000000700000000000600000000000300000000000400000000000600000000000800000000000700000000000600000000000400000000000700000000000700000000000300000000000500000000000400000000000600000000000400000000000600000000000800000000000600000000000500000000000400000000000200000000000500000000000500000000000500000000000800000000000400000000000700000000000800000000000200000000000400000000000400000000000400000000000100000000000900000000000700000000000800000000000400000000000600000000000800000000000000000000000200000000000600000000000600000000000217990000000413990621960300000000000300000000000))
 (.node 1 (.leaf 400000000000800000000000900000000000600000000000800000000000700000000000600000000000200000000000300000000000600000000000500000000000400000000000400000000000800000000000800000000000800000000000800000000000800000000000800000000000400000000000900000000000800000000000200000000000500000000000200000000000800000000000600000000000600000000000100000000000800000000000600000000000400000000000715180000000700000000000200000000000500000000000400000000000300000000000900000000000600000000000600000000000800000000000600000000000600000000000200000000000500000000000700000000000800000000000800000000000400000000000800000000000800000000000800000000000200000000000200000000000200000000000200000000000200000000000600000000000812980100000012980000000300000000000600000000000600000000000)
 (.leaf 400000000000600000000000400000000000400000000000800000000000400000000000600000000000700000000000200000000000700000000000500000000000500000000000700000000000100000000000900000000000400000000000400000000000400000000000800000000000600000000000200000000000200000000000200000000000800000000000600000000000500000000000500000000000100000000000600000000000300000000000600000000000400000000000300000000000400000000000400000000000800000000000800000000000800000000000800000000000600000000000600000000000100000000000800000000000500000000000100000000000200000000000500000000000800000000000400000000000800000000000800000000000900000000000100000000000100000000000600000000000300000000000200000000000200000000000200000000000000000000000200000000000200000000000600000000000400000000000))))))))
 (.node 64 (.node 32 (.node 16 (.node 8 (.node 4 (.node 2 (.node 1 (.leaf 400000000000921320000000400000000000600000000000200000000000200000000000400000000000600000000000600000000000300000000000500000000000400000000000800000000000100000000000400000000000900000000000800000000000800000000000100000000000400000000000800000000000300000000000200000000000400000000000400000000000000000000000000000000000600000000000400000000000600000000000800000000000802540000000800000000000700000000000200000000000200000000000200000000000200000000000200000000000800000000000600000000000500000000000400000000000400000000000600000000000400000000000400000000000400000000000600000000000300000000000300000000000200000000000300000000000400000000000400000000000800000000000500000000000000000000000000000000000600000000000600000000000400000000000400000000000200000000000)
 (.leaf 200000000000200000000000900000000000800000000000400000000000100000000000200000000000500000000000400000000000700000000000400000000000400000000000600000000000600000000000600000000000100000000000400000000000600000000000700000000000500000000000000000000000300000000000800000000000600000000000300000000000400000000000700000000000800000000000700000000000600000000000400000000000600000000000200000000000400000000000900000000000800000000000800000000000315630611988200000000000400000000000600000000000900000000000900000000000900000000000800000000000800000000000400000000000600000000000700000000000800000000000400000000000400000000000200000000000600000000000400000000000621330621972400000000000400000000000800000000000600000000000400000000000600000000000500000000000500000000000))
 (.node 1 (.leaf 400000000000800000000000800000000000600000000000900000000000300000000000200000000000400000000000200000000000200000000000100000000000200000000000400000000000300000000000300000000000600000000000200000000000600000000000400000000000400000000000600000000000400000000000600000000000400000000000600000000000400000000000400000000000600000000000600000000000200000000000200000000000400000000000900000000000200000000000200000000000400000000000600000000000400000000000000000000000000000000000300000000000700000000000400000000000400000000000200000000000300000000000800000000000800000000000200000000000600000000000400000000000400000000000400000000000600000000000200000000000300000000000200000000000200000000000200000000000200000000000300000000000600000000000200000000000800000000000)
 (.leaf 200000000000800000000000800000000000400000000000200000000000900000000000200000000000200000000000300000000000400000000000200000000000400000000000600000000000500000000000400000000000400000000000400000000000600000000000500000000000800000000000400000000000400000000000600000000000100000000000200000000000300000000000200000000000600000000000200000000000400000000000100000000000200000000000300000000000200000000000200000000000400000000000200000000000500000000000400000000000200000000000700000000000200000000000700000000000700000000000618000000000400000000000400000000000600000000000400000000000600000000000600000000000200000000000400000000000200000000000218010621985400000000000400000000000000000000000600000000000200000000000200000000000200000000000800000000000809350621972)))
 (.node 2 (.node 1 (.leaf 821380000000400000000000400000000000600000000000800000000000700000000000900000000000200000000000604650000000600000000000400000000000600000000000200000000000200000000000200000000000600000000000200000000000200000000000400000000000500000000000500000000000200000000000200000000000100000000000422590100000400000000000400000000000400000000000507400100000400000000000400000000000400000000000400000000000813840000000600000000000500000000000400000000000400000000000400000000000300000000000600000000000600000000000600000000000400000000000800000000000200000000000100000000000700000000000500000000000400000000000200000000000200000000000200000000000300000000000200000000000400000000000221390621973400000000000400000000000400000000000700000000000200000000000600000000000600000000000)
 (.leaf 900000000000200000000000600000000000900000000000400000000000200000000000200000000000600000000000500000000000300000000000300000000000200000000000600000000000200000000000200000000000511590100000500000000000400000000000900000000000217320000000400000000000400000000000600000000000200000000000600000000000200000000000400000000000100000000000800000000000400000000000000000000000200000000000200000000000100000000000800000000000400000000000400000000000400000000000400000000000400000000000200000000000600000000000500000000000800000000000600000000000200000000000600000000000400000000000400000000000412790100000400000000000714650611976714650000000900000000000115400611967802280000000600000000000200000000000600000000000900000000000500000000000200000000000400000000000300000000000))
 (.node 1 (.leaf 600000000000200000000000400000000000200000000000200000000000200000000000300000000000400000000000600000000000400000000000700000000000200000000000800000000000600000000000600000000000101260000000700000000000800000000000600000000000400000000000500000000000200000000000800000000000400000000000300000000000200000000000500000000000600000000000200000000000200000000000200000000000600000000000200000000000200000000000600000000000400000000000800000000000800000000000400000000000600000000000200000000000600000000000600000000000400000000000500000000000400000000000800000000000600000000000600000000000500000000000400000000000800000000000800000000000200000000000600000000000200000000000900000000000800000000000700000000000700000000000500000000000600000000000600000000000300000000000)
 (.leaf 400000000000300000000000400000000000300000000000800000000000700000000000700000000000300000000000200000000000300000000000500000000000400000000000200000000000400000000000600000000000500000000000900000000000800000000000800000000000200000000000400000000000600000000000400000000000600000000000500000000000800000000000800000000000800000000000614990000000300000000000600000000000400000000000300000000000800000000000400000000000200000000000200000000000200000000000600000000000400000000000800000000000200000000000500000000000500000000000500000000000500000000000400000000000800000000000700000000000900000000000700000000000700000000000400000000000600000000000400000000000600000000000800000000000600000000000200000000000300000000000600400000000400000000000700000000000400000000000))))
 (.node 4 (.node 2 (.node 1 (.leaf 600000000000400000000000800000000000200000000000600000000000500000000000500000000000300000000000300000000000400000000000100000000000200000000000200000000000600000000000600000000000400000000000600000000000300000000000100000000000500000000000400000000000200000000000200000000000400000000000500000000000200000000000800000000000600000000000900000000000300000000000600000000000300000000000600000000000600000000000600000000000908360100000500000000000600000000000600000000000500000000000300000000000300000000000500000000000500000000000500000000000700000000000200000000000100000000000414610000000613590621960400000000000600000000000600000000000200000000000200000000000200000000000600000000000300000000000400000000000200000000000600000000000500000000000500000000000400000000000)
 (.leaf 700000000000714610611971400000000000700000000000600000000000600000000000200000000000500000000000200000000000200000000000500000000000400000000000400000000000600000000000400000000000600000000000500000000000400000000000800000000000900000000000414770621985314330000000009670100000600000000000400000000000600000000000501580000000400000000000800000000000800000000000700000000000100000000000800000000000600000000000600000000000600000000000600000000000400000000000800000000000800000000000800000000000500000000000400000000000600000000000300000000000600000000000000000000000900000000000800000000000900000000000600000000000400000000000400000000000800000000000400000000000400000000000600000000000000000000000200000000000900000000000600000000000800000000000800000000000600000000000))
 (.node 1 (.leaf 400000000000400000000000410190611955300000000000500000000000507020100000500000000000000000000000600000000000600000000000000000000000600000000000400000000000500000000000500000000000100000000000723270622004600000000000600000000000100000000000200000000000200000000000600000000000500000000000605940100000500000000000600000000000800000000000800000000000600000000000500000000000500000000000500000000000602190000000500000000000421530100000200000000000300000000000000000000000300000000000200000000000500000000000412110100000600000000000500000000000600000000000403130000000600000000000600000000000300000000000500000000000100000000000421930100000200000000000600000000000900000000000000000000000500000000000121930000000818330621984600000000000900000000000500000000000500000000000)
 (.leaf 500000000000500000000000500000000000500000000000800000000000600000000000421450000000800000000000400000000000600000000000500000000000700000000000300000000000000000000000300000000000000000000000600000000000500000000000600000000000500000000000600000000000000000000000000000000000600000000000722670000000600000000000500000000000600000000000421470000000600000000000600000000000600000000000410070100000000000000000500000000000600000000000400000000000200000000000000000000000000000000000500000000000221480000000500000000000500000000000400000000000600000000000600000000000600000000000500000000000206200100000400000000000300000000000500000000000500000000000604490100000100000000000500000000000600000000000500000000000200000000000200000000000500000000000600000000000500000000000)))
 (.node 2 (.node 1 (.leaf 500000000000500000000000200000000000600760000000500000000000500000000000404440100000600000000000600000000000500000000000000000000000600000000000600000000000600000000000500000000000401300000000003330100000600000000000600000000000500000000000000000000000500000000000601330000000600000000000500000000000500000000000600920000000200920000000600000000000500000000000600000000000600000000000900000000000508290100000500000000000500000000000608900100000500000000000402260000000500000000000500000000000800100000000200030000000100030000000600020000000900040000000900040000000900040000000900040000000900040000000600000000000618660000000600000000000500000000000600000000000500000000000600000000000200000000000500000000000500000000000400000000000400000000000800000000000300000000000)
 (.leaf 600000000000600000000000400000000000500000000000700000000000500000000000600000000000400000000000600000000000500000000000800000000000400000000000400000000000600000000000600000000000400000000000800000000000800000000000800000000000800000000000800000000000400000000000600000000000609680000000400000000000500000000000500000000000500000000000400000000000600000000000500000000000800000000000800000000000600000000000700000000000600000000000500000000000500000000000700000000000600000000000400000000000800000000000800000000000600000000000600000000000600000000000400000000000900000000000600000000000400000000000500000000000500000000000400000000000600000000000400000000000800000000000500000000000500000000000500000000000400000000000500000000000100000000000600000000000500000000000))
 (.node 1 (.leaf 500000000000500000000000800000000000800000000000800000000000800000000000800000000000600000000000500000000000500000000000500000000000400000000000300000000000500000000000600000000000500000000000500000000000800000000000800000000000800000000000800000000000800000000000800000000000800000000000800000000000800000000000800000000000800000000000800000000000800000000000600000000000900000000000800000000000600000000000500000000000400000000000700000000000600000000000600000000000800000000000800000000000800000000000400000000000500000000000500000000000600000000000400000000000800000000000800000000000800000000000800000000000800000000000600000000000400000000000500000000000500000000000500000000000500000000000800000000000800000000000800000000000800000000000800000000000600000000000)
 (.leaf 610150000000500000000000500000000000500000000000400000000000200000000000200000000000200000000000200000000000200000000000200000000000800000000000700000000000600000000000400000000000500000000000500000000000500000000000500000000000500000000000500000000000500000000000500000000000500000000000500000000000500000000000500000000000500000000000200000000000200000000000200000000000100000000000100000000000100000000000100000000000100000000000100000000000400000000000700000000000800000000000800000000000800000000000800000000000800000000000600000000000500000000000400000000000500000000000600000000000500000000000500000000000500000000000100000000000400000000000800000000000800000000000800000000000700000000000900000000000800000000000500000000000500000000000500000000000600000000000)))))
 (.node 8 (.node 4 (.node 2 (.node 1 (.leaf 900000000000300000000000400000000000600000000000500000000000500000000000700000000000600000000000400000000000100000000000200000000000100000000000700000000000800000000000600000000000500000000000600000000000400000000000700000000000400000000000500000000000500000000000600000000000100000000000100000000000400000000000800000000000800000000000700000000000500000000000400000000000600000000000600000000000300000000000500000000000500000000000100000000000400000000000800000000000800000000000800000000000800000000000800000000000800000000000800000000000700000000000700000000000700000000000800000000000800000000000800000000000300000000000200000000000600000000000200000000000600000000000500000000000400000000000400000000000200000000000300000000000700380000000400000000000203720100000)
 (.leaf 600000000000500000000000600000000000400000000000800000000000100000000000400000000000600000000000500000000000500000000000500000000000400000000000100000000000600380000000500000000000400000000000600000000000500000000000500000000000500000000000500000000000500000000000500000000000400000000000600000000000500000000000500000000000500000000000400000000000600000000000400000000000500000000000500000000000600000000000500000000000100000000000600000000000400000000000200000000000900000000000400000000000600000000000500000000000500000000000600000000000400000000000400000000000400000000000600000000000600000000000600000000000600000000000400000000000400000000000500000000000400000000000600000000000600000000000500000000000500000000000400000000000500000000000600000000000500000000000))
 (.node 1 (.leaf 500000000000500000000000400000000000100000000000300000000000600000000000200000000000610980000000400000000000500000000000500000000000500000000000500000000000500000000000400000000000600000000000600000000000100000000000412910100000800000000000400000000000700000000000400000000000400000000000600000000000400000000000600000000000400000000000400000000000400000000000500000000000500000000000500000000000400000000000400000000000500000000000500000000000400000000000100000000000100000000000200000000000100000000000100000000000100000000000100000000000100000000000600000000000500000000000600000000000400000000000600000000000500000000000900000000000400000000000600000000000400000000000600000000000400000000000610260100000600000000000400000000000600000000000500000000000600000000000)
 (.leaf 500000000000400000000000400000000000200000000000100000000000100000000000100000000000100000000000800000000000300000000000900000000000300000000000500000000000500000000000500000000000500000000000500000000000500000000000500000000000600000000000500000000000500000000000400000000000600000000000900000000000400000000000700000000000600000000000600000000000400000000000600000000000500000000000500000000000400000000000612850000000500000000000408950000000100000000000600000000000600000000000500000000000500000000000800000000000600000000000400000000000100000000000200000000000400000000000500000000000400000000000600000000000400000000000900000000000800000000000800000000000600000000000400000000000100000000000100000000000800000000000600000000000400000000000600000000000500000000000)))
 (.node 2 (.node 1 (.leaf 500000000000500000000000400000000000400000000000500000000000800000000000500000000000400000000000500000000000500000000000500000000000400000000000900000000000600000000000600000000000500000000000604410100000500000000000500000000000512510100000400000000000600000000000500000000000500000000000400000000000600000000000600000000000500000000000800000000000600000000000600000000000400000000000600000000000700000000000600000000000600000000000600000000000400000000000800000000000600000000000600000000000400000000000900000000000800000000000500000000000500000000000400000000000400000000000611250000000609130100000611540100000500000000000109810000000600000000000200000000000300000000000200000000000300000000000600000000000500000000000500000000000600000000000500000000000412890000000)
 (.leaf 500000000000600000000000800000000000422530000000600000000000600000000000400000000000600000000000700000000000700000000000400000000000800000000000600000000000600000000000700000000000900000000000600000000000400000000000200000000000600000000000511430100000500000000000500000000000700000000000800000000000600000000000400000000000800000000000400000000000500000000000400000000000610960100000600000000000402350000000404360100000500000000000600000000000400000000000500000000000200000000000200000000000600000000000400000000000800000000000600000000000101140000000700000000000600000000000212890000000600000000000400000000000700000000000600000000000800000000000400000000000421830000000712030100000600000000000300000000000600000000000400000000000600000000000200000000000600000000000))
 (.node 1 (.leaf 600000000000200000000000400000000000800000000000600000000000600000000000700000000000600000000000400000000000200000000000400000000000600000000000600000000000400000000000500000000000600000000000800000000000800000000000800000000000800000000000800000000000900000000000900000000000500000000000905000100000800000000000500000000000602880000000400000000000200000000000900000000000800000000000300000000000800000000000600000000000800000000000500000000000400000000000400000000000400000000000421830000000600000000000300000000000600000000000600000000000900000000000600000000000600000000000400000000000600000000000600000000000600000000000600000000000600000000000900000000000600000000000400000000000400000000000400000000000700000000000504180000000500000000000400000000000200000000000)
 (.leaf 200000000000600000000000400000000000400000000000600000000000500000000000500000000000500000000000600000000000600000000000400000000000700000000000400000000000200000000000600000000000500000000000500000000000500000000000500000000000604480000000600000000000200000000000922140000000222140621967600000000000806450100000500000000000500000000000600000000000400000000000800000000000600000000000400000000000807320100000300000000000400000000000400000000000401610000000600000000000600000000000400000000000400000000000900000000000600000000000400000000000900000000000600000000000800000000000200000000000800000000000400000000000400000000000600000000000500000000000400000000000200000000000800000000000600000000000400000000000400000000000500000000000500000000000500000000000500000000000))))
 (.node 4 (.node 2 (.node 1 (.leaf 501130000000500000000000600000000000500000000000400000000000400000000000200000000000300000000000200000000000600000000000619420000000600000000000601370000000401370000000600000000000500000000000700000000000400000000000200000000000600000000000400000000000700000000000400000000000300000000000200000000000600000000000600000000000600000000000400000000000600000000000800000000000800000000000800000000000300000000000800000000000400000000000600000000000900000000000600000000000509690100000200000000000100000000000400000000000600000000000400000000000803200100000604090000000400000000000600000000000600000000000400000000000800000000000400000000000800000000000600000000000400000000000600000000000200270000000400000000000700000000000700000000000700000000000200000000000400000000000)
 (.leaf 300000000000400000000000200000000000200000000000600000000000500000000000400000000000400000000000100000000000200000000000400000000000500000000000600000000000400000000000400880000000408160100000700000000000400000000000600000000000600000000000600000000000600000000000600000000000400000000000600000000000400000000000600000000000400000000000400000000000600000000000400000000000100000000000800000000000500000000000400000000000400000000000600000000000400000000000300000000000700000000000400000000000200060000000400060000000100000000000600000000000800000000000400000000000311920100000600000000000300000000000700000000000700000000000200000000000308190000000600000000000619450000000500000000000900000000000600000000000400000000000300000000000600000000000400000000000205790000000))
 (.node 1 (.leaf 612430000000600000000000600000000000400000000000900000000000200000000000600000000000300000000000600000000000400000000000700000000000800000000000800000000000400000000000600000000000400000000000600000000000900000000000400000000000800000000000400000000000400000000000100000000000200000000000400000000000600000000000400000000000400000000000400000000000400000000000400000000000800000000000800000000000900000000000600000000000400000000000401380000000600000000000800000000000500000000000600000000000802950000000800000000000500000000000400000000000700270000000500000000000500000000000700000000000600000000000500000000000500000000000500000000000500000000000419460621968618450621985600000000000600000000000500000000000700000000000400000000000400000000000400000000000400000000000)
 (.leaf 400000000000600000000000600000000000300000000000600000000000400000000000600000000000200000000000300000000000600000000000300000000000400000000000800000000000400000000000600000000000900000000000400000000000800000000000700000000000800000000000700000000000100000000000500000000000800000000000500000000000700000000000200000000000100000000000400000000000600000000000900000000000400000000000200000000000601270000000400000000000100000000000609510000000500000000000400000000000400000000000800000000000700000000000700000000000700000000000600000000000500000000000500000000000700000000000619480000000619490000000400000000000602020000000609940100000400000000000600000000000200000000000400000000000600000000000600000000000100000000000600000000000400000000000600000000000600000000000)))
 (.node 2 (.node 1 (.leaf 400000000000300000000000100000000000600000000000600000000000900000000000600000000000300000000000600000000000400000000000400000000000600000000000800000000000400000000000600000000000800000000000600000000000600000000000600000000000600000000000400000000000500000000000500000000000400000000000600000000000600000000000400000000000100000000000600000000000400000000000600000000000900000000000800000000000800000000000800000000000400000000000611230100000200000000000500000000000700000000000800000000000800000000000900000000000800000000000319480000000600000000000400000000000606820100000900000000000800000000000700000000000900000000000200000000000400000000000600000000000800000000000600000000000800000000000400000000000900000000000200000000000300000000000700000000000600000000000)
 (.leaf 800000000000800000000000800000000000600000000000700000000000600000000000400000000000400000000000400000000000400000000000500000000000500000000000400000000000400000000000400000000000600000000000400060000000200000000000403910000000300000000000410040000000300000000000400000000000100000000000600000000000400000000000400000000000407610100000500000000000400000000000600000000000600000000000100000000000400000000000600000000000400000000000600000000000600000000000800000000000200000000000300000000000600000000000200000000000400000000000100000000000400000000000600000000000200000000000800000000000200000000000900000000000500000000000500000000000900000000000400000000000700000000000600000000000400000000000300000000000900000000000600000000000400000000000400000000000605820000000))
 (.node 1 (.leaf 900000000000605500000000500000000000600000000000700000000000400000000000500000000000400000000000600000000000400000000000414230000000411650100000321650000000621650000000300000000000400000000000400000000000606260000000400000000000600000000000300000000000400000000000600000000000400000000000100000000000600000000000400000000000400000000000600000000000400000000000100000000000100000000000600000000000600000000000300000000000600000000000200000000000200000000000400000000000600000000000400000000000600000000000800000000000400000000000400000000000400000000000802560000000500000000000400000000000400000000000600000000000700000000000600000000000400000000000400000000000600000000000406370000000700000000000605690100000400000000000608660100000610170100000800000000000500000000000)
 (.leaf 500000000000500000000000500000000000200000000000200000000000607170000000801070000000300000000000400000000000600000000000400000000000600000000000600000000000800000000000600000000000600000000000400000000000300000000000400000000000100000000000100000000000400000000000600000000000400000000000400000000000800000000000900000000000400000000000600000000000600000000000200000000000400000000000600000000000400000000000900000000000900000000000400000000000605550100000901980100000400000000000400000000000200000000000600000000000500000000000400000000000607340100000800000000000709280100000400000000000901660100000401070000000600000000000800000000000400000000000900000000000800000000000600000000000800000000000800000000000700000000000400000000000400000000000600000000000700000000000))))))
 (.node 16 (.node 8 (.node 4 (.node 2 (.node 1 (.leaf 600000000000600000000000700000000000600000000000600000000000400000000000100000000000600000000000400000000000600000000000200000000000200000000000900000000000300000000000600000000000200000000000400000000000400000000000800000000000400000000000400000000000200000000000300000000000600000000000400000000000607240000000400000000000400000000000302390100000300000000000522980100000400000000000600000000000700000000000622270000000419561421955600000000000800000000000800000000000400000000000400000000000200000000000700000000000200000000000400000000000900000000000800000000000400000000000700000000000800000000000400000000000400000000000600000000000800000000000300000000000600000000000500000000000400000000000800000000000600000000000500000000000100000000000700000000000400000000000)
 (.leaf 100000000000600000000000700000000000400000000000622520000000607730100000610130100000500000000000500000000000400000000000400000000000400000000000200000000000600000000000200150000000603940000000611720000000400000000000100000000000300000000000100000000000810470100000300000000000300000000000600000000000200000000000400000000000100000000000600000000000200000000000200000000000400000000000400000000000600000000000800000000000400000000000600000000000400000000000400000000000800000000000619580000000800000000000400000000000400000000000200000000000411810100000400000000000600000000000400000000000821630000000900000000000800000000000400000000000900000000000603160000000410510000000808780000000800000000000605300000000600000000000500000000000400000000000400000000000200000000000))
 (.node 1 (.leaf 600000000000400000000000600000000000319570621974400000000000202750100000222490100000400130000000605340000000400000000000400000000000800000000000612660000000100000000000400000000000400000000000800000000000400000000000600000000000600000000000400000000000400000000000400000000000900000000000400000000000700000000000900000000000100000000000200000000000600000000000600000000000700000000000500000000000500000000000500000000000400000000000600000000000208370000000700000000000700000000000400000000000600000000000400000000000403350000000200000000000613260000000200000000000600000000000400000000000621810100000200000000000404880000000500000000000400000000000600000000000407670100000600130000000400150000000300000000000400000000000400000000000800000000000700000000000800000000000)
 (.leaf 100000000000200000000000300000000000200000000000600000000000400000000000600000000000600000000000400000000000600000000000800000000000600000000000200000000000300000000000900000000000600000000000400000000000400000000000300000000000800000000000600000000000800000000000600000000000200000000000100000000000900000000000400000000000512950100000400000000000609640100000600000000000602730100000423030000000400000000000600000000000801310000000322580000000300000000000400000000000300000000000300000000000600000000000506220000000803210100000400000000000600000000000800000000000100000000000600000000000400000000000900000000000400000000000400000000000300000000000400000000000300000000000600000000000200000000000200000000000200000000000100000000000200000000000500000000000400000000000)))
 (.node 2 (.node 1 (.leaf 500000000000700000000000404200000000200000000000403680000000300000000000600000000000400000000000600000000000602220000000400000000000600970000000810450000000403520000000606680100000600000000000400000000000600000000000400000000000601250000000400000000000700000000000700000000000600000000000300000000000300000000000400000000000800000000000800000000000400000000000400000000000600000000000600000000000600000000000900000000000400000000000600000000000300000000000600000000000800000000000400000000000622570100000803050000000400000000000403440000000800000000000400000000000102160100000500000000000600000000000200000000000600000000000400000000000600000000000900000000000200000000000600000000000600000000000600000000000700000000000400000000000100000000000600000000000400000000000)
 (.leaf 700000000000900000000000800000000000400000000000600000000000600000000000500000000000400000000000510020100000200000000000200000000000800000000000600000000000400000000000810970000000303780100000600000000000500000000000606060100000600000000000500000000000500000000000410560100000602860000000600000000000600000000000400000000000600000000000200000000000400000000000400000000000600840000000400000000000600000000000400000000000100000000000800000000000400000000000200000000000100000000000724440000000900000000000600000000000600000000000600000000000600000000000400000000000600000000000500000000000500000000000500000000000412080100000500000000000400000000000600000000000600000000000800000000000400000000000310250100000600000000000700000000000309730100000611730100000400000000000))
 (.node 1 (.leaf 200000000000500000000000600770000000500000000000500000000000400000000000400000000000400000000000400000000000600000000000800000000000400000000000400000000000900000000000100000000000400000000000424440000000800000000000800000000000600000000000600000000000400000000000401150100000200000000000700000000000800000000000400000000000800000000000700000000000900000000000609900100000500000000000804990100000606700100000500000000000600000000000400000000000600000000000600000000000100000000000800000000000600000000000900000000000900000000000600000000000700000000000600000000000600000000000600000000000800000000000700000000000600000000000400000000000100000000000900000000000400000000000500000000000400000000000300000000000800000000000400000000000900000000000700000000000605310000000)
 (.leaf 600000000000500000000000700000000000500000000000500000000000400000000000900000000000800000000000800000000000201500000000600000000000700000000000600000000000400000000000700000000000600000000000400000000000700000000000700000000000400000000000800000000000600000000000600000000000900000000000400000000000600000000000500000000000900000000000300000000000900000000000100000000000801080000000900000000000900000000000500000000000901640000000600000000000600000000000500000000000600000000000400000000000600000000000800000000000100000000000200000000000401740000000800000000000400000000000900000000000400000000000600000000000900000000000800000000000800000000000800000000000200000000000400000000000800000000000800000000000600000000000400000000000600000000000800000000000800000000000))))
 (.node 4 (.node 2 (.node 1 (.leaf 600000000000400000000000300000000000600000000000600000000000600000000000800000000000900000000000813240100000608230100000622820000000800000000000800000000000500000000000410660100000600000000000600000000000501110100000500000000000418480621923700000000000500000000000400000000000800000000000900000000000600000000000300000000000200000000000400000000000700000000000600000000000600000000000400000000000400000000000400000000000700000000000800000000000900000000000600000000000800000000000400000000000500000000000500000000000400000000000200000000000500000000000500000000000400000000000600830000000600000000000205640000000200000000000622180000000500000000000400000000000700000000000410240100000812450100000808720000000600000000000500000000000500000000000100000000000400000000000)
 (.leaf 218090000000400000000000600000000000600000000000400000000000200000000000900000000000600000000000400000000000400000000000400000000000600000000000900000000000800000000000800000000000300000000000600000000000811010100000621980000000221620000000600000000000421770000000600000000000600000000000500000000000500000000000500000000000500000000000500000000000400000000000600000000000600000000000400000000000600000000000800000000000800000000000600000000000600000000000800000000000400000000000800000000000900000000000600000000000400000000000600000000000305760100000600000000000400000000000700000000000600000000000601170000000200000000000407620000000900000000000800000000000500000000000500000000000412350000000800000000000800000000000600000000000500000000000500000000000500000000000))
 (.node 1 (.leaf 400000000000900000000000400000000000300000000000300000000000700000000000600000000000400000000000400000000000600000000000600000000000800000000000600000000000400000000000700000000000900000000000700000000000800000000000611200000000400000000000600000000000400000000000300000000000400000000000500000000000402840000000800000000000705990100000600000000000803040100000602420000000607250100000812610100000800000000000405920000000700000000000100000000000407520000000600000000000500000000000500000000000400000000000700000000000400000000000600000000000600000000000800280000000700000000000200000000000000000000000400000000000400000000000400000000000800000000000900000000000900000000000800000000000400000000000600000000000800000000000300700000000400000000000500000000000400000000000)
 (.leaf 600000000000700000000000900000000000410050100000222200000000803410100000621580100000500000000000400000000000400000000000407450000000719640000000600000000000500000000000800000000000713550000000600000000000300000000000400000000000200000000000700000000000600000000000600000000000600000000000000000000000400000000000107100000000400000000000400000000000400000000000600000000000900000000000200000000000700000000000600000000000400000000000500000000000622300000000605490000000600000000000900000000000600000000000609240100000421840000000602080100000600000000000600000000000600000000000819640000000400000000000700230000000600000000000500000000000500000000000600000000000600000000000400000000000800000000000800000000000800000000000400000000000600000000000200000000000600000000000)))
 (.node 2 (.node 1 (.leaf 805200000000013130100000400000000000400000000000400000000000600000000000900000000000400000000000200000000000900000000000600000000000600000000000500000000000400000000000600000000000622300000000600000000000700000000000900000000000900000000000400100000000600000000000400000000000402100000000400000000000722460100000406410100000822260100000412520000000400000000000400000000000100000000000400000000000700000000000600000000000300000000000100000000000800000000000300000000000800000000000400000000000600890000000100000000000600000000000800000000000400000000000400000000000800000000000700000000000400000000000700000000000400000000000800000000000400000000000600000000000400000000000200000000000400000000000600000000000200000000000400000000000405580100000600000000000)
 (.leaf 600000000000800000000000600000000000400000000000600000000000603880100000400000000000400000000000800000000000422190000000600000000000600000000000900000000000500711421932400000000000200000000000700000000000200000000000400000000000400000000000200000000000800000000000700000000000400000000000900000000000400000000000900000000000400000000000600000000000900000000000800000000000600000000000500000000000400000000000600000000000600000000000600000000000900000000000600000000000400000000000300000000000300000000000600000000000600000000000500000000000500000000000200000000000800000000000400000000000800000000000400000000000600000000000600000000000400000000000200000000000400000000000700000000000600000000000000000000000800000000000800000000000401090000000400000000000800000000000))
 (.node 1 (.leaf 900000000000400000000000200000000000400000000000900000000000600000000000500000000000900000000000400000000000900000000000800000000000600000000000000000000000811170100000600000000000800100000000400000000000600000000000400000000000600650000000200000000000200000000000600000000000200000000000500000000000500000000000300000000000400000000000400000000000800000000000800000000000600000000000600000000000100000000000400000000000200000000000400000000000400000000000400000000000404920000000800000000000821670100000400000000000600000000000600000000000000000000000000000000000600000000000800000000000400000000000100000000000800000000000900000000000800000000000400000000000400000000000600000000000600000000000200000000000400000000000600000000000308000000000600000000000802590100000)
 (.leaf 400100000000700000000000613000000000800000000000600000000000400000000000200000000000300000000000123260000000223260000000600000000000200000000000400000000000700000000000800000000000700000000000400000000000600000000000100000000000400000000000400000000000221670000000900000000000000000000000800000000000800000000000400000000000600000000000800000000000400000000000818670000000900000000000200000000000100000000000607660000000500000000000500000000000614960000000422560000000600000000000200850000000600000000000600000000000407050100000206910100000600000000000700000000000900000000000400000000000600000000000100000000000600000000000100000000000200000000000106730100000900000000000700000000000900000000000400000000000400000000000200000000000600000000000100000000000300000000000)))))
 (.node 8 (.node 4 (.node 2 (.node 1 (.leaf 300000000000900000000000200000000000300000000000400000000000200000000000300000000000600000000000800000000000800000000000300000000000800320000000409330100000910290100000600000000000200000000000500000000000500000000000600000000000400000000000700000000000600000000000900000000000100000000000400000000000200000000000600000000000300000000000400000000000700000000000800000000000800000000000400000000000800000000000400000000000400000000000005770100000600460000000400000000000800000000000200000000000300510100000600000000000800000000000400000000000600000000000300000000000400000000000200000000000400000000000600000000000600000000000600000000000600330000000800000000000900000000000400000000000200000000000200000000000100000000000319700000000500000000000100000000000400000000000)
 (.leaf 600000000000400000000000600000000000800000000000600000000000400000000000400520000000300000000000200000000000200000000000211620000000100000000000200000000000200000000000200000000000100000000000700000000000400000000000009600100000800000000000600000000000800000000000800000000000204740000000700000000000700000000000100000000000300000000000200000000000603770000000300000000000200000000000600000000000600000000000300000000000617420611991600000000000300000000000400000000000400390000000800000000000300000000000400000000000400000000000700000000000400000000000200000000000400000000000600000000000300000000000400000000000600000000000006500100000400000000000600000000000800000000000400000000000700000000000400000000000300000000000600950000000700000000000700000000000600000000000))
 (.node 1 (.leaf 600000000000800000000000600000000000400000000000411320000000300000000000400000000000600000000000507980100000200000000000400000000000200010000000800000000000800000000000800000000000401541421921800000000000100000000000500000000000600000000000811150100000500000000000400000000000800000000000600000000000600000000000200000000000200000000000200000000000600000000000600000000000600000000000700000000000200000000000800000000000300000000000600350000000400000000000400000000000606830100000600000000000700000000000600000000000600000000000400000000000800000000000600000000000500000000000202800000000600000000000008940100000418720000000418710000000408590100000600010000000600930621918400000000000800000000000800000000000300000000000200000000000400000000000600000000000200000000000)
 (.leaf 200000000000400000000000400000000000400000000000700000000000800000000000300000000000200000000000100000000000400000000000600000000000900000000000800000000000700000000000400000000000300000000000100000000000300000000000200000000000513671421916600000000000608940000000200010000000300000000000900000000000500000000000500000000000400000000000400000000000200000000000700000000000200000000000400580000000300000000000200000000000200000000000200000000000400000000000100000000000000000000000700000000000400000000000200000000000200000000000400000000000800350000000400000000000900000000000804160100000100000000000600000000000400000000000200000000000300000000000400000000000100000000000400000000000600000000000800000000000600870000000200000000000619800621884400010000000424671422008)))
 (.node 2 (.node 1 (.leaf 802930621948419400000000600000000000200000000000400000000000606630100000802600000000600000000000800000000000600000000000600000000000100000000000400000000000316240000000309820000000400000000000300000000000300000000000200000000000500000000000400000000000400000000000100000000000423910000000800000000000700000000000000000000000100000000000400000000000200000000000600000000000700000000000600000000000400000000000200000000000500000000000500000000000213930000000213870621973400000000000600000000000400000000000600000000000213450100000600000000000900000000000400000000000400000000000600000000000602310000000400000000000100000000000616240000000206640000000700000000000300000000000300000000000300000000000400000000000400000000000200020000000400000000000200000000000400000000000)
 (.leaf 400000000000200000000000000000000000200000000000600000000000000000000000000000000000300000000000400000000000400000000000600000000000400000000000400000000000600000000000600000000000400000000000400000000000100000000000401530100000500000000000402430000000200000000000600000000000400000000000100000000000400000000000700000000000600000000000701860000000600000000000400000000000400140000000601840000000400000000000600000000000200000000000100000000000400000000000600000000000200000000000600000000000800000000000600000000000400000000000400000000000600000000000600000000000800000000000617440611951600000000000400030000000600000000000200000000000400000000000800000000000800000000000800000000000500000000000500000000000100000000000400000000000507260100000411890100000300000000000))
 (.node 1 (.leaf 300020000000300020000000400000000000400000000000700000000000700000000000800000000000400000000000600000000000200000000000600000000000000000000000200000000000000000000000300000000000400000000000300000000000400000000000900000000000900000000000800000000000900000000000600000000000200000000000200000000000200000000000421740100000600000000000700000000000218780000000500000000000100000000000400000000000600000000000600000000000600000000000800000000000500000000000400000000000400000000000400000000000300000000000200000000000400000000000700000000000000000000000000000000000000000000000000000000000400000000000000000000000600000000000605930000000900000000000400000000000800000000000800000000000600000000000300000000000400030000000200000000000512710100000400000000000)
 (.leaf 900000000000600000000000800000000000600000000000400000000000700000000000600020000000400000000000806540100000400000000000000000000000400000000000300000000000000000000000400000000000600000000000800000000000700000000000600000000000800000000000822410000000400000000000418970000000400000000000413070000000900000000000600960000000200000000000619860000000400040000000400030000000607190100000801280000000400000000000400000000000200000000000600000000000800000000000600000000000600000000000800000000000800000000000700000000000700000000000700000000000800000000000700000000000800000000000400000000000000000000000000000000000000000000000600000000000000000000000800000000000600000000000900000000000800000000000300000000000900000000000900000000000600000000000600000000000300000000000))))
 (.node 4 (.node 2 (.node 1 (.leaf 600000000000600000000000400000000000500000000000400000000000400000000000400000000000400000000000600000000000600000000000600000000000300000000000300000000000904270100000800020000000800020000000700000000000700000000000700000000000900000000000423880000000000000000000400000000000000000000000400000000000000000000000000000000000000000000000000000000000600000000000600000000000600000000000400000000000600000000000200000000000700000000000002580100000800000000000400000000000600000000000300000000000400000000000600000000000800120000000706710100000800000000000500000000000400000000000800000000000600000000000500000000000400000000000600000000000500000000000800000000000800000000000700000000000800000000000800000000000815190000000400000000000700000000000000000000000000000000000)
 (.leaf 600000000000200000000000400000000000200000000000300000000000400000000000400000000000100090000000600000000000200000000000600000000000300000000000500000000000300000000000817850621978400000000000800000000000700000000000200000000000816390611976600000000000800000000000400000000000600000000000410330000000000000000000400000000000600000000000000000000000600000000000000000000000000000000000000000000000900000000000300000000000600000000000413570000000600000000000418771421921800000000000300000000000900000000000600000000000300000000000600000000000600000000000300000000000700000000000308410100000400000000000416260621974213900621934500000000000413610000000600000000000200000000000400000000000600000000000400000000000800000000000200000000000800000000000))
 (.node 1 (.leaf 400210000000200000000000400000000000400000000000000000000000400000000000800000000000000000000000600000000000600000000000900000000000800000000000805080000000100000000000814180000000600000000000600000000000600000000000300000000000200000000000800000000000113940000000400000000000200000000000116280000000300000000000200000000000300000000000600000000000300000000000400000000000400000000000415390000000600000000000600000000000600000000000400000000000900000000000700000000000400000000000500000000000400000000000000000000000200000000000602300000000600000000000400000000000600000000000900090000000600000000000100000000000500000000000411530621970500000000000500000000000400000000000200000000000100000000000800000000000600000000000811210100000600000000000323120000000500000000000)
 (.leaf 10320100000400000000000400000000000600000000000600000000000400000000000600000000000000000000000200000000000000000000000000000000000900000000000414620621972415890000000400000000000500000000000700000000000400000000000700220000000300000000000200000000000200000000000400000000000400000000000500000000000600000000000000000000000800000000000400000000000600000000000402200000000400000000000418100621980600000000000600000000000400000000000100000000000600000000000000000000000400000000000600000000000600000000000000000000000800000000000600000000000100000000000700000000000600000000000300000000000200000000000200000000000400000000000600000000000200000000000500000000000200000000000421860000000500000000000500000000000500000000000613880000000521540000000923720000000417840611989)))
 (.node 2 (.node 1 (.leaf 600000000000600000000000500000000000400000000000000000000000400000000000600000000000600000000000600000000000800000000000600000000000500000000000500000000000114160621968603090100000800000000000000000000000400000000000600000000000600000000000600000000000600000000000600000000000613020000000800000000000300000000000800000000000300000000000214860621951600000000000500000000000800000000000400000000000600000000000400000000000400000000000400000000000400000000000400000000000100000000000600000000000600000000000800000000000000000000000000000000000600000000000200000000000500000000000416430000000500000000000118560000000400000000000600000000000500000000000400000000000600000000000400000000000200000000000400000000000800000000000400000000000900000000000000000000000200000000000)
 (.leaf 414840000000808420100000800000000000600000000000400000000000300000000000600000000000113361521966418560000000400000000000220040000000414910000000022510100000822510000000000440100000600000000000800000000000500000000000700000000000900000000000000000000000000000000000400000000000700000000000000000000000800000000000700000000000600000000000620060000000500000000000200000000000500000000000200000000000600000000000800000000000600000000000600000000000617550621964600000000000800000000000600000000000800000000000500000000000500000000000600000000000114110611993813310000000200000000000200000000000400000000000400000000000700000000000215020611967400000000000900000000000900000000000900000000000900000000000900000000000900000000000600000000000400000000000800000000000900000000000))
 (.node 1 (.leaf 600000000000200000000000500000000000500000000000415430611979000000000000000000000000300000000000800000000000300000000000400000000000600000000000700000000000900000000000500000000000600000000000000000000000220170611993600000000000403400000000200000000000700000000000200000000000400000000000600000000000900000000000900000000000800000000000800000000000400000000000200000000000600000000000000000000000500000000000414390000000400000000000200000000000100000000000900000000000400000000000300000000000600000000000700000000000600000000000400000000000700000000000707000000000400000000000800000000000100000000000800000000000600000000000800000000000800000000000003840100000400000000000600000000000400000000000900000000000600000000000500000000000716570000000800000000000)
 (.leaf 415740000000300000000000200000000000800000000000413830611962900000000000600000000000617560621941209990621963306300621959200000000000419030621973100000000000800000000000600000000000500000000000523130622005500000000000500000000000400000000000416500611971400000000000400000000000400000000000700000000000400000000000800000000000100000000000400000000000900000000000800000000000600000000000900000000000400000000000300000000000700000000000300000000000200000000000800000000000700000000000200000000000800000000000215090000000200000000000200000000000500000000000500000000000800000000000500000000000200000000000208010611959400000000000600000000000800000000000800000000000300000000000400000000000400000000000800000000000600000000000200000000000200000000000300000000000600000000000)))))))
 (.node 32 (.node 16 (.node 8 (.node 4 (.node 2 (.node 1 (.leaf 300000000000300000000000420350621943200000000000319290000000300000000000000000000000600000000000923440000000600000000000000000000000700000000000700000000000000000000000005510100000400000000000600000000000300000000000400000000000216580621989400000000000100000000000620370621979600000000000600000000000400000000000406770000000219230000000600000000000900000000000800000000000000000000000900000000000400000000000000000000000200000000000300000000000400000000000300000000000900000000000400000000000900000000000900000000000300000000000000000000000000000000000606860100000600000000000800000000000600000000000600000000000200000000000200000000000500000000000400000000000900000000000200000000000400000000000600000000000600000000000200000000000417880000000600000000000200000000000)
 (.leaf 400000000000400000000000100000000000400000000000200000000000200000000000800000000000005410100000600000000000002500100000300000000000600000000000600000000000500000000000418740000000500000000000500000000000400000000000300000000000200000000000314790621969200000000000414490621965200000000000400000000000415030000000400000000000600000000000600000000000600000000000400000000000800000000000600000000000900000000000800000000000400000000000800000000000600000000000616110621992300000000000500000000000400000000000600000000000620420000000200000000000109770000000100000000000304510621954400000000000000000000000600000000000900000000000800000000000000000000000800000000000200000000000400000000000600000000000404050000000000000000000600000000000600000000000))
 (.node 1 (.leaf 200000000000614320611959300000000000600000000000001510100000200000000000200000000000600000000000300000000000600000000000200000000000300000000000800000000000500000000000800000000000400000000000200000000000600000000000400000000000200000000000403920100000700000000000300000000000600000000000600000000000600000000000600000000000620540000000500000000000500000000000400000000000614340000000620500000000200000000000107590621926300000000000320520621953200000000000500000000000900000000000200000000000600000000000800000000000800000000000500000000000208910100000700000000000600000000000600000000000400000000000600000000000800000000000200000000000200000000000000000000000400000000000600000000000116620000000700000000000300000000000600000000000200000000000500000000000800000000000)
 (.leaf 700000000000600000000000600000000000100000000000210820000000200000000000400000000000200000000000300000000000200000000000300000000000200000000000200000000000800000000000400000000000600000000000600000000000800000000000600000000000400000000000400000000000100000000000000000000000407350100000600000000000300000000000300000000000614240621959500000000000400000000000300000000000220580621954300000000000200000000000400000000000600000000000300000000000600000000000400000000000200000000000600000000000200000000000200000000000900000000000400000000000800000000000602620000000600000000000600000000000600000000000224120000000200000000000601710000000200000000000800000000000615170611962200000000000300000000000400000000000200000000000800000000000500000000000200000000000500000000000)))
 (.node 2 (.node 1 (.leaf 500000000000500000000000000000000000600000000000900000000000600000000000400000000000200000000000300000000000400000000000400000000000200000000000100000000000022310100000021950000000702830100000600000000000400000000000200000000000722830100000611800100000800000000000807690000000600000000000200000000000200000000000100000000000614980611972600000000000200000000000600000000000800000000000800000000000200000000000200000000000200000000000200000000000900000000000800000000000700000000000900000000000600000000000400000000000722380100000001390100000821950000000000730100000215060000000800000000000200000000000205610000000200000000000400000000000900000000000900000000000500000000000400000000000200000000000300000000000400000000000900000000000800000000000800000000000900000000000)
 (.leaf 400000000000700000000000700000000000700000000000400000000000400000000000400000000000200000000000400000000000600000000000200000000000624100000000200000000000200000000000800000000000000000000000615450621964600000000000522940100000500000000000500000000000803800000000200000000000800000000000700000000000700000000000700000000000400000000000600000000000800000000000600000000000900000000000600000000000400000000000400000000000100000000000200000000000400000000000200000000000200000000000600000000000600000000000700000000000300000000000624110000000603510621960208440000000300000000000500000000000300000000000400000000000800000000000800000000000900000000000700000000000700000000000600000000000800000000000800000000000600000000000400000000000006000100000500000000000400000000000))
 (.node 1 (.leaf 800000000000800000000000400000000000600000000000400000000000100000000000400000000000400000000000200000000000400000000000900000000000611110000000400000000000603510000000800000000000800000000000300000000000600000000000400000000000800000000000600000000000900000000000600000000000800000000000223410622009600000000000400000000000300000000000400000000000300000000000200000000000400000000000200000000000200000000000100000000000600000000000615950611961200000000000500000000000200000000000200000000000600000000000400000000000800000000000400000000000600000000000800000000000600000000000400000000000400000000000300000000000600000000000600000000000400000000000600000000000300000000000200000000000300000000000400000000000600000000000100000000000200000000000624640000000800000000000)
 (.leaf 600000000000400000000000624610000000412060100000600000000000500000000000800000000000600000000000400000000000600000000000400000000000400000000000600000000000600000000000400000000000400000000000600000000000700000000000900000000000600000000000600000000000700000000000600000000000100000000000400000000000800000000000400000000000400000000000200000000000200000000000200000000000800000000000600000000000800000000000414570611955220750000000600000000000814600000000600000000000500000000000612140100000400000000000200000000000600000000000200000000000200000000000100000000000800000000000600000000000400000000000500000000000900000000000600000000000600000000000400000000000400000000000600000000000700000000000600000000000300000000000600000000000200000000000400000000000400000000000))))
 (.node 4 (.node 2 (.node 1 (.leaf 200000000000600000000000800000000000200000000000200000000000500000000000400000000000500000000000500000000000400000000000000000000000400000000000300000000000800000000000300000000000200000000000900000000000600000000000700000000000800000000000400000000000800000000000800000000000200000000000200000000000200000000000600000000000600000000000400000000000200000000000600000000000400000000000000000000000300000000000300000000000200000000000400000000000624510622005600000000000800000000000700000000000500000000000120770611982900000000000400000000000400000000000600000000000600000000000800000000000800000000000700000000000800000000000800000000000600000000000600000000000700000000000500000000000600000000000400000000000200000000000200000000000300000000000100000000000100000000000)
 (.leaf 300000000000300000000000200000000000400000000000700000000000800000000000223670000000924630622003700000000000618530000000600000000000600000000000200000000000200000000000300000000000800000000000400000000000700000000000600000000000600000000000400000000000600000000000800000000000800000000000500000000000500000000000600000000000400000000000600000000000600000000000800000000000815860621962800000000000900000000000500000000000400000000000800000000000200000000000200000000000000000000000700000000000800000000000800000000000300000000000600000000000600000000000800000000000600000000000900000000000800000000000500000000000500000000000500000000000600000000000800000000000600000000000316120000000600000000000200000000000900000000000120810611981600000000000400000000000600000000000))
 (.node 1 (.leaf 200000000000200000000000400000000000700000000000200000000000600000000000600000000000800000000000800000000000400000000000700000000000800000000000800000000000200000000000900000000000900000000000300000000000400000000000400000000000300000000000600000000000200000000000100000000000616840622001200000000000500000000000800000000000800000000000600000000000600000000000400000000000200000000000200000000000100000000000600000000000800000000000900000000000800000000000600000000000600000000000400000000000400000000000200000000000600000000000800000000000500000000000700000000000800000000000803320000000900000000000320830611957204840100000123940622010200000000000600000000000600000000000600000000000500000000000200000000000500000000000400000000000400000000000100000000000700000000000)
 (.leaf 800000000000100000000000300000000000700000000000900000000000800000000000400000000000300000000000100000000000200000000000100000000000800000000000700000000000800000000000900000000000820820000000803320000000620860611959600000000000800000000000216800612001200000000000200000000000204620000000510110100000300000000000200000000000200000000000200000000000700000000000100000000000600000000000400000000000400000000000600000000000500000000000400000000000100000000000600000000000400000000000400000000000200000000000100000000000600000000000400000000000200000000000600000000000200000000000400000000000100000000000800000000000800000000000600000000000800000000000600000000000600000000000400000000000400000000000216750000000600000000000316780000000614450000000200000000000100000000000)))
 (.node 2 (.node 1 (.leaf 424550000000324020000000224000622008200000000000200000000000200000000000600000000000700000000000700000000000400000000000400000000000200000000000300000000000300000000000100000000000100000000000900000000000900000000000400000000000400000000000500000000000900000000000600000000000300000000000600000000000300000000000600000000000300000000000300000000000200000000000200000000000200000000000502780621962800000000000600000000000100000000000300000000000600000000000400000000000800000000000600000000000600000000000200000000000600000000000800000000000400000000000600000000000800000000000400000000000200000000000500000000000600000000000200000000000520920611964500000000000200000000000500000000000400000000000700000000000800000000000200000000000400000000000200000000000200000000000)
 (.leaf 100000000000600000000000400000000000800000000000500000000000900000000000200000000000600000000000900000000000800000000000700000000000300000000000500000000000400000000000600000000000216790611972816810000000200000000000300000000000600000000000300000000000500000000000500000000000500000000000400000000000000000000000800000000000500000000000500000000000000000000000300000000000800000000000200000000000600000000000500000000000900000000000600000000000500000000000800000000000400000000000300000000000913740000000200000000000600000000000600000000000500000000000400000000000900000000000800000000000800000000000800000000000800000000000800000000000300000000000200000000000200000000000400000000000800000000000900000000000400000000000600000000000800000000000200000000000400000000000))
 (.node 1 (.leaf 400000000000800000000000600000000000316920611968900000000000600000000000400000000000500000000000500000000000200000000000715070611949500000000000600000000000500000000000400000000000400000000000200000000000200000000000200000000000200000000000400000000000600000000000600000000000500000000000600000000000500000000000600000000000600000000000223760000000623800000000317730611986400000000000600000000000400000000000500000000000200000000000400000000000800000000000300000000000200000000000200000000000200000000000600000000000100000000000200000000000100000000000300000000000600000000000400000000000800000000000600000000000900000000000400000000000500000000000323800000000500000000000220960611985400000000000900000000000600000000000200000000000400000000000600000000000200000000000)
 (.leaf 300000000000600000000000500000000000800000000000900000000000800000000000800000000000700000000000500000000000400000000000300000000000200000000000203120621972222100611985400000000000400000000000400000000000505400100000200000000000100000000000600000000000800000000000200000000000200000000000400000000000400000000000600000000000800000000000800000000000605600000000200000000000300000000000616940000000500000000000200000000000104600000000204600000000400000000000920990621991700000000000800000000000000000000000200000000000200000000000200000000000400000000000400000000000200000000000600000000000600000000000300000000000400000000000400000000000600000000000200000000000400000000000600000000000800000000000800000000000900000000000600000000000600000000000500000000000200000000000)))))
 (.node 8 (.node 4 (.node 2 (.node 1 (.leaf 800000000000700000000000900000000000400000000000000000000000400000000000200000000000400000000000600000000000500000000000900000000000600000000000800000000000300000000000300000000000700000000000800000000000100000000000319050611961400000000000200000000000622290000000100000000000700000000000400000000000200000000000200000000000700000000000600000000000800000000000800000000000000000000000500000000000500000000000200000000000200000000000204540611966401720000000600000000000405960000000400000000000400000000000800000000000400000000000300000000000800000000000400000000000400000000000900000000000800000000000300000000000600000000000600000000000400000000000900000000000100000000000200000000000800000000000100000000000400000000000600000000000400000000000800000000000800000000000)
 (.leaf 400000000000400000000000900000000000500000000000500000000000900000000000500000000000400000000000901820000000815320621984900000000000500000000000400000000000200000000000200000000000400000000000800000000000600000000000400000000000500000000000600000000000500000000000600000000000217010611999600000000000200000000000200000000000600000000000614880621901400000000000300000000000200000000000400000000000200000000000600000000000400000000000400000000000500000000000600000000000500000000000221070611978500000000000219220621973900000000000400000000000600000000000200000000000100000000000400000000000200110000000600000000000400000000000400000000000200000000000800000000000900000000000600000000000400000000000500000000000200000000000500000000000800000000000500000000000500000000000))
 (.node 1 (.leaf 100000000000200000000000200000000000600000000000700000000000400000000000300000000000200000000000600000000000800000000000503480100000400000000000200000000000200000000000424700622008500000000000600000000000500000000000800000000000600000000000700000000000300000000000400000000000400000000000200000000000800000000000800000000000811690100000500000000000500000000000500000000000400000000000400000000000800000000000800000000000900000000000900000000000700000000000800000000000700000000000600000000000600000000000800000000000800000000000400000000000400000000000600000000000400000000000800000000000600000000000500000000000300000000000600000000000200000000000700000000000507280100000400000000000100000000000400000000000800000000000200000000000200000000000400000000000800000000000)
 (.leaf 600480000000621080611931600000000000300180000000500000000000800000000000800000000000900000000000300000000000400000000000900000000000800000000000100000000000200000000000300000000000200000000000800000000000500000000000223850000000500000000000200000000000600000000000600000000000600000000000200000000000218190000000100000000000800000000000800000000000800000000000803580000000800000000000900000000000800000000000300000000000300000000000600000000000400000000000500000000000500000000000600000000000600000000000600000000000800000000000200000000000400000000000200000000000200000000000900000000000500000000000500000000000500000000000300000000000500000000000600000000000300000000000500000000000500000000000500000000000400000000000800000000000800000000000600000000000400000000000)))
 (.node 2 (.node 1 (.leaf 700000000000900000000000400000000000700000000000200000000000600000000000400000000000700000000000600000000000504260100000200000000000500000000000800000000000600000000000200000000000800000000000800000000000600000000000600000000000400000000000800000000000400000000000900000000000400000000000900000000000700000000000200000000000500000000000500000000000600000000000300000000000600000000000100000000000100000000000200000000000600000000000200000000000400000000000700000000000400000000000600000000000600000000000600000000000504260000000500000000000500000000000600000000000800000000000600000000000200000000000207470000000100000000000200000000000200000000000200000000000200000000000200000000000200000000000402270000000800000000000400000000000600000000000700000000000400000000000)
 (.leaf 500000000000500000000000500000000000500000000000917170000000600000000000200000000000500000000000100000000000200000000000200000000000200000000000100000000000700000000000800000000000100000000000800000000000800000000000800000000000400000000000200000000000908640611960300000000000200000000000200000000000300000000000500000000000800000000000600000000000600000000000800000000000400000000000600000000000200000000000100000000000600000000000600000000000600000000000800000000000800000000000800000000000600000000000200000000000600000000000600000000000700000000000200000000000100000000000400000000000200000000000200000000000400000000000800000000000800000000000700000000000200000000000100000000000600000000000700000000000300000000000600000000000400000000000800000000000500000000000))
 (.node 1 (.leaf 500000000000200000000000201410000000300200000000100000000000700000000000800000000000400000000000900000000000700000000000600000000000600000000000500000000000800000000000800000000000800000000000600000000000219080621959200000000000505680000000509610000000503640000000204350621971900000000000300000000000200000000000800000000000800000000000001290100000300000000000200000000000500000000000500000000000600000000000900000000000500000000000100000000000400000000000500000000000800000000000200000000000100000000000400000000000200000000000400000000000800000000000700000000000800000000000800000000000200000000000600000000000200000000000500000000000400000000000600000000000800000000000518240000000522210000000522210000000200000000000500000000000600000000000200000000000200000000000)
 (.leaf 400000000000700000000000800000000000100000000000200000000000500000000000800000000000500000000000400000000000600000000000500000000000200000000000900000000000800000000000800000000000400000000000800000000000821170000000800000000000500000000000200000000000800000000000800000000000600000000000200000000000600000000000600000000000800000000000500000000000500000000000600000000000600000000000400000000000400000000000800000000000700000000000100000000000500000000000800000000000600000000000200000000000600000000000400000000000600000000000200000000000400000000000400000000000600000000000100000000000300000000000200000000000800000000000600000000000800000000000200000000000600000000000700000000000900000000000800000000000400000000000300000000000400000000000600000000000400000000000))))
 (.node 4 (.node 2 (.node 1 (.leaf 400000000000600000000000813720621984600000000000800000000000700000000000800000000000300000000000400000000000700000000000700000000000300000000000200000000000800000000000500000000000600000000000600000000000600000000000400000000000700000000000800000000000800000000000500000000000400000000000600000000000400000000000400000000000800000000000200000000000300000000000800000000000500000000000823480000000600000000000400000000000200000000000300000000000300000000000700000000000800000000000200000000000300000000000400000000000200000000000100000000000200000000000200000000000900000000000600000000000200000000000200000000000700000000000700000000000800000000000700000000000200000000000600000000000200000000000200000000000300000000000200000000000500000000000400000000000200000000000)
 (.leaf 700000000000700000000000500000000000700000000000600000000000300000000000600000000000200000000000400000000000200000000000600000000000400000000000400000000000800000000000009300100000600000000000600000000000200000000000400000000000600000000000200000000000700000000000600000000000200000000000600000000000300000000000200000000000200000000000400000000000200000000000200000000000400000000000100000000000100000000000600000000000400000000000400000000000700000000000205140000000300000000000400000000000600000000000500000000000300000000000600000000000600000000000300000000000300000000000100000000000600000000000300000000000700000000000418660000000600000000000400000000000200000000000600000000000900000000000600000000000400000000000600000000000800000000000400000000000400000000000))
 (.node 1 (.leaf 900570000000600000000000921200621987600000000000600000000000500000000000200000000000300000000000600000000000600000000000218260000000400000000000900000000000400000000000718660000000600000000000600000000000900000000000600000000000600000000000400000000000402870000000400000000000600000000000400000000000700000000000700000000000800000000000400000000000222250000000300000000000600000000000400000000000200000000000200000000000200000000000700000000000500000000000200000000000300000000000600000000000900000000000812930100000800000000000700000000000400000000000200551421959313140100000400000000000600000000000600000000000900000000000600000000000200000000000200000000000500000000000500000000000200000000000900000000000600000000000300000000000800000000000900000000000500000000000)
 (.leaf 623310622011700000000000400000000000600000000000818660000000400000000000600000000000500000000000500000000000500000000000200000000000300000000000604240000000606230100000822390000000800000000000800000000000800000000000500000000000400000000000100000000000200000000000800000000000600000000000500000000000500000000000200000000000600000000000800000000000400000000000900000000000800000000000800000000000200000000000700000000000200000000000200000000000400000000000309070621966300000000000800000000000400000000000600000000000800000000000400000000000100000000000800000000000600000000000800000000000500000000000200000000000700000000000800000000000200000000000600000000000600000000000200000000000800000000000900000000000900000000000900000000000800000000000800000000000800000000000)))
 (.node 2 (.node 1 (.leaf 100000000000800000000000800000000000400000000000800000000000200000000000900000000000800000000000900000000000600000000000611000000000800000000000500000000000800000000000800000000000800000000000500000000000500000000000500000000000500000000000200000000000400000000000400000000000800000000000900000000000800000000000600000000000900000000000500000000000700000000000800000000000800000000000200000000000800000000000300000000000800000000000800000000000900000000000800000000000700000000000800000000000500000000000800000000000800000000000400000000000300000000000521220000000100000000000500000000000800000000000600000000000600000000000800000000000800000000000900000000000900000000000800000000000400000000000800000000000800000000000400000000000600000000000300000000000500000000000)
 (.leaf 400000000000800000000000900000000000800000000000800000000000800000000000400000000000821880611942400000000000700000000000400000000000800000000000600000000000500000000000800000000000600000000000800000000000800000000000700000000000800000000000800000000000800000000000600000000000700000000000800000000000614930621956400000000000800000000000500000000000500000000000500000000000100000000000600000000000800000000000600000000000800000000000800000000000800000000000400000000000600000000000400000000000900000000000800000000000800000000000800000000000600000000000622890000000600000000000500000000000500000000000500000000000400000000000114080000000500000000000421250611975800000000000900050000000700000000000600000000000500000000000700000000000800000000000800000000000900000000000))
 (.node 1 (.leaf 800000000000400000000000900000000000800000000000800000000000800000000000200000000000400000000000600000000000800000000000900000000000600000000000500000000000500000000000800000000000800000000000800000000000800000000000800000000000300000000000800000000000800000000000800000000000800000000000200000000000200070000000600000000000900000000000800000000000600000000000900000000000400000000000400000000000800000000000800000000000300000000000400000000000800000000000900000000000800000000000200000000000100070000000500000000000500000000000300000000000600000000000800000000000800000000000800000000000800000000000300000000000822080621930600000000000200000000000500000000000300000000000600000000000800000000000600000000000600000000000500000000000700000000000900000000000800000000000)
 (.leaf 800000000000600000000000800000000000222860000000300000000000300000000000600000000000400000000000400000000000800000000000800000000000400000000000600000000000600000000000500000000000300000000000300000000000400000000000600000000000500000000000600000000000600000000000800000000000600000000000200000000000200000000000500000000000300000000000300000000000500000000000500000000000500000000000500000000000500000000000500000000000400000000000700000000000800000000000900000000000800000000000800000000000400000000000800000000000500000000000700000000000800000000000200000000000600000000000500000000000400000000000900000000000600000000000900000000000800000000000800000000000600000000000400000000000600000000000100000000000400000000000900000000000900000000000500000000000200000000000))))))
 (.node 16 (.node 8 (.node 4 (.node 2 (.node 1 (.leaf 500000000000600000000000800000000000600000000000800000000000700000000000700000000000700000000000800000000000600000000000500000000000200000000000200000000000200000000000200000000000600000000000400000000000200000000000600070000000800000000000200000000000700000000000300000000000900000000000600000000000900000000000400000000000200000000000300000000000214890000000200000000000600000000000500000000000500000000000400000000000400000000000500000000000500000000000200000000000800000000000700000000000200000000000900000000000800000000000918280000000800000000000600000000000600000000000600000000000600000000000300000000000500000000000500000000000400000000000400000000000800000000000609500000000600000000000800000000000800000000000800000000000812900100000700000000000200000000000)
 (.leaf 100000000000600000000000800000000000800000000000700000000000400000000000200000000000200000000000600000000000700000000000500000000000800000000000900000000000800000000000800000000000900000000000900000000000400000000000500000000000200000000000400000000000600000000000300000000000600000000000700000000000300000000000800000000000900000000000600000000000100000000000200000000000200000000000800000000000700000000000600000000000900000000000400000000000800000000000700000000000300000000000323170622006300000000000400000000000600000000000200000000000200000000000600000000000600000000000900000000000600000000000100000000000500000000000400000000000800000000000600000000000900000000000500000000000400000000000500000000000100000000000800000000000600000000000100000000000400000000000))
 (.node 1 (.leaf 800000000000623200622005100000000000200000000000600000000000300000000000500000000000700000000000500000000000400000000000700000000000700000000000600000000000400000000000200000000000200000000000600000000000623200000000500000000000600000000000200000000000900000000000800000000000600000000000400000000000200000000000600000000000300000000000400000000000400000000000800000000000800000000000700000000000224340622010600000000000500000000000300000000000800000000000700000000000800000000000800000000000500000000000500000000000800000000000600000000000600000000000100000000000600000000000600000000000300000000000300000000000400000000000300000000000300000000000400000000000300000000000600000000000400000000000600000000000800000000000800000000000400000000000400000000000600000000000)
 (.leaf 800000000000600000000000400000000000700000000000700000000000500000000000200000000000600000000000100000000000800000000000600000000000600000000000200000000000400000000000600000000000800000000000200000000000400000000000800000000000607540000000200000000000200000000000500000000000400000000000600000000000900000000000400000000000600000000000500000000000500000000000600000000000300000000000600000000000600000000000400000000000717300621994800000000000600000000000400000000000600000000000700000000000600000000000200000000000400000000000200000000000400000000000400000000000600000000000300000000000700000000000200000000000800000000000700000000000700000000000900000000000800000000000900000000000200000000000600000000000100000000000400000000000800000000000800000000000600000000000)))
 (.node 2 (.node 1 (.leaf 900000000000300000000000400000000000700000000000200000000000300000000000803710000000500000000000400000000000600000000000200000000000600000000000400000000000500000000000800000000000800000000000800000000000200000000000100000000000800000000000100000000000818290000000000000000000200000000000600000000000600000000000600000000000200000000000324010622015300000000000500000000000800000000000800000000000800000000000400000000000800000000000800000000000800000000000400000000000800000000000600000000000800000000000300000000000400000000000413990000000600000000000100000000000600000000000600000000000800000000000300000000000300000000000700000000000600000000000500000000000900000000000800000000000400000000000800000000000600000000000800000000000600000000000200000000000600000000000)
 (.leaf 600000000000700000000000801100000000100000000000600000000000600000000000400000000000300000000000300000000000400000000000500000000000100000000000600000000000200000000000700000000000400000000000300000000000600000000000400000000000600000000000700000000000800000000000400000000000300000000000200000000000600000000000600000000000800000000000500000000000800000000000600000000000800000000000600000000000300000000000400000000000300000000000300000000000300000000000600000000000100000000000400000000000400000000000600000000000600000000000300000000000400000000000400000000000800000000000700000000000400000000000300000000000100000000000100000000000600000000000400000000000600000000000700000000000402670621962700000000000100000000000200000000000300000000000800000000000300000000000))
 (.node 1 (.leaf 500000000000400000000000400000000000400000000000000000000000200000000000200000000000800000000000000000000000400000000000200000000000600000000000200000000000600000000000300000000000600000000000800000000000800000000000600000000000400000000000400000000000400000000000600000000000400000000000300000000000400000000000200000000000100000000000600000000000300000000000400000000000400000000000700000000000800000000000500000000000600000000000200000000000200000000000900000000000800000000000300000000000700000000000800000000000300000000000300000000000300000000000300000000000200000000000400000000000800000000000800000000000600000000000400000000000300000000000200000000000200000000000200000000000900000000000200000000000200000000000200000000000800000000000800000000000800000000000)
 (.leaf 800000000000400000000000400000000000500000000000000000000000600000000000600000000000400000000000200000000000400000000000700000000000600000000000400000000000800000000000600000000000400000000000300000000000600000000000100000000000400000000000400000000000400000000000800000000000600000000000400000000000400000000000000000000000300000000000700000000000300000000000400000000000100000000000100000000000200000000000900000000000600000000000800000000000400000000000200000000000600000000000200000000000400000000000400000000000600000000000400000000000700000000000600000000000600000000000300000000000500000000000100000000000600000000000200000000000100000000000200000000000100000000000400000000000600000000000800000000000300000000000200000000000200000000000400000000000300000000000))))
 (.node 4 (.node 2 (.node 1 (.leaf 600000000000600000000000200000000000400000000000200000000000204800000000200000000000300000000000400000000000800000000000400000000000614550611984400000000000100000000000800000000000700000000000300000000000200000000000200000000000200000000000200000000000500000000000400000000000200000000000200000000000424300622007500000000000600000000000800000000000504650000000400000000000600000000000600000000000600000000000200000000000100000000000800000000000900000000000200000000000200000000000200000000000100000000000222590000000400000000000724290622006400000000000600000000000600000000000200000000000200000000000600000000000600000000000300000000000600000000000400000000000600000000000200000000000200000000000200000000000400000000000200000000000100000000000100000000000400000000000)
 (.leaf 400000000000600000000000500000000000600000000000800000000000400000000000500000000000200000000000200000000000000000000000000000000000221400611978800000000000400000000000500000000000200000000000800000000000600000000000600000000000400000000000400000000000800000000000200000000000500000000000600000000000200000000000400000000000800000000000100000000000500000000000200000000000900000000000700000000000400000000000300000000000200000000000400000000000400000000000800000000000800000000000400000000000500000000000200000000000600000000000400000000000900000000000400000000000415400000000600000000000100000000000800000000000500000000000100000000000400000000000600000000000600000000000200000000000300000000000200000000000200000000000600000000000800000000000800000000000700000000000))
 (.node 1 (.leaf 500000000000200000000000600000000000400000000000400000000000800000000000400000000000800000000000300000000000400000000000600000000000200000000000400000000000200000000000400000000000400000000000700000000000400000000000600000000000400000000000600000000000400000000000200000000000200000000000600000000000600000000000100000000000800000000000800000000000400000000000800000000000800000000000500000000000800000000000600000000000400000000000100000000000800000000000200000000000600000000000500000000000700000000000400000000000618950000000400000000000600000000000300000000000600400000000500000000000200000000000300000000000200000000000200000000000510370100000300000000000500000000000711450611967600000000000600000000000400000000000400000000000300000000000200000000000400000000000)
 (.leaf 200000000000200000000000400000000000500000000000400000000000300000000000600000000000900000000000900000000000300000000000600000000000400000000000500000000000500000000000400000000000800000000000714610000000500000000000414010000000600000000000900000000000200000000000500000000000500000000000500000000000400000000000400000000000400000000000600000000000200000000000200000000000600000000000500000000000800000000000600000000000800000000000600000000000500000000000500000000000400000000000700000000000700000000000400000000000414770000000600000000000500000000000800000000000800000000000200000000000600000000000600000000000800000000000900000000000600000000000400000000000800000000000407410611961700000000000600000000000600000000000600000000000700000000000400000000000200000000000)))
 (.node 2 (.node 1 (.leaf 400000000000300000000000000000000000000000000000600000000000500000000000200000000000800000000000400000000000300000000000500000000000500000000000600000000000200000000000500000000000509440100000400000000000000000000000500000000000500000000000500000000000802190100000400000000000400000000000200000000000600000000000600000000000500000000000500000000000403130100000600000000000000000000000000000000000800000000000602550100000600000000000500000000000500000000000400000000000400000000000500000000000400000000000600000000000500000000000500000000000500000000000600000000000500000000000500000000000600000000000600000000000500000000000500000000000411750100000600000000000500000000000500000000000506920100000800000000000500000000000300000000000000000000000000000000000621510621965)
 (.leaf 400000000000200000000000600000000000000000000000500000000000500000000000900760000000500000000000100760000000800000000000000000000000609390100000600000000000801300000000200000000000500000000000201330100000600000000000600920000000300000000000207110100000600000000000600000000000600000000000502260100000300010000000300010000000200010000000900010000000600010000000200020000000600020000000300030000000600020000000718660000000600000000000500000000000500000000000600000000000500000000000400000000000400000000000600000000000500000000000500000000000200000000000602520000000500000000000600000000000500000000000500000000000400000000000500000000000600000000000400000000000800000000000800000000000500000000000609680100000500000000000500000000000400000000000300000000000800000000000))
 (.node 1 (.leaf 800000000000600000000000500000000000500000000000600000000000400000000000800000000000800000000000600000000000400000000000500000000000500000000000400000000000500000000000400000000000800000000000800000000000800000000000800000000000800000000000400000000000500000000000800000000000800000000000800000000000800000000000800000000000800000000000800000000000800000000000800000000000800000000000800000000000800000000000800000000000900000000000800000000000600000000000400000000000500000000000500000000000600000000000800000000000800000000000800000000000500000000000500000000000500000000000200000000000500000000000800000000000800000000000800000000000900000000000800000000000400000000000400000000000800000000000800000000000800000000000800000000000800000000000500000000000800000000000)
 (.leaf 700000000000600000000000610150000000500000000000700000000000800000000000800000000000800000000000800000000000800000000000600000000000400000000000500000000000500000000000500000000000500000000000200000000000200000000000200000000000800000000000800000000000800000000000700000000000600000000000800000000000400000000000500000000000400000000000500000000000400000000000100000000000100000000000100000000000100000000000100000000000100000000000800000000000700000000000800000000000400000000000100000000000600000000000500000000000100000000000800000000000800000000000700000000000500000000000600000000000600000000000400000000000200000000000200000000000400000000000800000000000800000000000800000000000800000000000800000000000800000000000800000000000700000000000700000000000800000000000)))))
 (.node 8 (.node 4 (.node 2 (.node 1 (.leaf 800000000000900000000000400000000000600000000000600000000000500000000000100000000000400000000000600000000000600000000000400000000000100000000000400000000000600000000000500000000000500000000000500000000000400000000000400000000000500000000000500000000000500000000000400000000000600380000000400000000000800000000000100000000000400000000000600000000000500000000000400000000000500000000000400000000000500000000000600000000000400000000000500000000000500000000000609570000000200000000000700000000000900000000000600000000000600000000000400000000000400000000000400000000000600000000000600000000000400000000000500000000000500000000000500000000000600000000000300000000000610980100000500000000000400000000000600000000000200000000000400000000000800000000000700000000000600000000000)
 (.leaf 600000000000400000000000100000000000100000000000500000000000400000000000400000000000100000000000600000000000500000000000500000000000600000000000400000000000600000000000600000000000400000000000400000000000600000000000500000000000500000000000400000000000400000000000100000000000100000000000100000000000100000000000100000000000100000000000100000000000500000000000500000000000600000000000400000000000600000000000600000000000400000000000300000000000400000000000600000000000500000000000500000000000609400000000500000000000500000000000600000000000200000000000100000000000100000000000100000000000100000000000200000000000600000000000500000000000400000000000900000000000400000000000400000000000800000000000700000000000600000000000600000000000800000000000405160000000500000000000))
 (.node 1 (.leaf 500000000000400000000000600000000000600000000000400000000000904370100000400000000000600000000000600000000000900000000000400000000000400000000000400000000000300000000000400000000000600000000000400000000000600000000000600000000000600000000000600000000000400000000000400000000000800000000000800000000000900000000000400000000000611250100000600000000000509040100000500000000000500000000000400000000000500000000000500000000000812890100000800000000000222530000000600000000000800000000000900000000000400000000000600000000000400000000000600000000000400000000000300000000000700000000000700000000000800000000000400000000000600000000000500000000000601190100000500000000000400000000000606840000000500000000000411360100000403530100000500000000000509810100000400000000000400000000000)
 (.leaf 600000000000200000000000400000000000800000000000500000000000200000000000900000000000400000000000422530000000600000000000400000000000600000000000800000000000900000000000900000000000600000000000600000000000600000000000600000000000400000000000400000000000600000000000602880000000500000000000400000000000600000000000600000000000606850000000400000000000400000000000400000000000400000000000421830000000600000000000605800000000200000000000200000000000200000000000900000000000300000000000600000000000400000000000600000000000300000000000600000000000200000000000400000000000700000000000500000000000400000000000100000000000200000000000700000000000400000000000300000000000700000000000600000000000500000000000100000000000200000000000613860621960300000000000600000000000601930000000)))
 (.node 2 (.node 1 (.leaf 700000000000700000000000500000000000500000000000400000000000400000000000401610000000600000000000600000000000300000000000400000000000400000000000900000000000700000000000400000000000600000000000800000000000400000000000400000000000500000000000622420000000400000000000400000000000400000000000800000000000700000000000400000000000408260000000800000000000600000000000900000000000200000000000400000000000700000000000700000000000800000000000200000000000600000000000619420000000600000000000200000000000222140000000201370000000101370000000600000000000400000000000300000000000500000000000800000000000400000000000600000000000400000000000600000000000400000000000600000000000800000000000800000000000600000000000400000000000600000000000400000000000800000000000900000000000600000000000)
 (.leaf 500000000000800000000000500000000000200000000000500000000000400000000000200000000000200000000000500000000000400000000000600000000000600000000000100000000000400000000000400000000000400000000000600000000000400000000000400000000000400000000000600000000000800000000000600000000000900000000000900000000000400000000000600000000000400000000000600000000000400000000000600000000000400000000000600000000000400000000000300000000000400000000000200000000000400060000000600000000000802950100000900000000000400000000000500000000000700000000000608190000000600000000000619450621960500000000000600000000000500000000000200000000000100000000000600000000000100000000000212430100000300000000000600000000000800000000000600000000000900000000000400000000000600000000000400000000000800000000000))
 (.node 1 (.leaf 600000000000700000000000400000000000400000000000400000000000400000000000600000000000500000000000500000000000501320000000400000000000800000000000700000000000700000000000900000000000600000000000400000000000400060000000401380100000600000000000800000000000600000000000500000000000500000000000400000000000700000000000700000000000700000000000300000000000500000000000400000000000305670100000605670000000600000000000500000000000800000000000500000000000700000000000600000000000900000000000305790100000300000000000400000000000600000000000600000000000400000000000800000000000700000000000300000000000800000000000400000000000600000000000400000000000400000000000800060000000201270000000400000000000609510100000500000000000500000000000600000000000700000000000700000000000500000000000)
 (.leaf 319480621963319490621963100000000000600000000000600000000000700000000000400000000000600000000000600000000000400000000000600000000000600000000000600000000000600000000000400000000000600000000000600000000000600000000000600000000000300000000000600000000000400000000000400000000000800000000000600000000000600000000000400000000000600000000000400000000000600000000000300000000000200000000000400000000000406400000000200000000000200000000000400000000000800000000000800000000000700000000000200000000000400000000000600000000000400000000000203560000000700000000000600000000000400000000000400000000000400000000000300000000000900000000000600000000000400000000000800000000000400000000000800000000000600000000000400000000000400000000000700000000000900000000000403910100000600000000000))))
 (.node 4 (.node 2 (.node 1 (.leaf 410040100000200000000000422540000000500000000000600000000000100000000000400000000000600000000000100000000000800000000000900000000000600000000000700000000000900000000000400000000000600000000000600000000000400000000000600000000000400000000000400000000000600000000000800000000000800000000000400000000000403500000000110700100000400000000000605820100000200000000000500000000000800000000000400000000000600000000000200000000000100000000000500000000000300000000000500000000000400000000000806260000000500000000000200000000000400000000000200000000000100000000000900000000000400000000000300000000000600000000000200000000000400000000000600000000000800000000000800000000000400000000000600000000000400000000000100000000000900000000000800000000000400000000000400000000000600000000000)
 (.leaf 600000000000406370100000200810000000100000000000809480100000611570000000602790100000621650721969300000000000500000000000500000000000400000000000400000000000400000000000900000000000900000000000800000000000400000000000400000000000400000000000200000000000400000000000400000000000300000000000700000000000600000000000900000000000900000000000400000000000400000000000400000000000500000000000400000000000500000000000500000000000619530621966500000000000310890100000411950100000701070000000600000000000400000000000200000000000800000000000400000000000800000000000600000000000800000000000800000000000600000000000800000000000700000000000600000000000400000000000200000000000700000000000600000000000700000000000400000000000100000000000700000000000400000000000600000000000400000000000))
 (.node 1 (.leaf 200000000000100000000000600000000000500000000000602920000000222270100000600000000000400000000000400000000000400000000000700000000000400000000000800000000000600000000000600000000000800000000000600000000000600000000000400000000000300000000000621630100000800000000000400000000000400000000000600000000000600000000000401590000000622520000000622660100000801940000000613370100000400000000000200000000000500000000000600000000000203940100000611720100000400000000000600000000000800000000000300000000000400000000000200000000000800000000000200000000000400000000000600000000000800000000000400000000000900000000000400000000000100000000000400000000000100000000000600000000000100000000000400000000000400000000000410510000000305300100000607420000000500000000000400000000000500000000000)
 (.leaf 400000000000600000000000300000000000500000000000206930100000605340100000200150000000400000000000400000000000600000000000600000000000400000000000100000000000100000000000400000000000700000000000800000000000300000000000300000000000800000000000800000000000400000000000500000000000500000000000800000000000400000000000200000000000400000000000803350000000213260100000900000000000100000000000600000000000404880000000400000000000400000000000200000000000619570000000421601521971200000000000200130000000904020100000400000000000700000000000400000000000300000000000700000000000600000000000800000000000600000000000400000000000100000000000200000000000800000000000200000000000408370100000100000000000200000000000600000000000200000000000200000000000200000000000600000000000400000000000)))
 (.node 2 (.node 1 (.leaf 800000000000610450000000400000000000500000000000604910000000800000000000400000000000400000000000200000000000400000000000300000000000300000000000300000000000400000000000800000000000600000000000400000000000200000000000800000000000200000000000600000000000600000000000100000000000500000000000400000000000400000000000204200100000703050000000300000000000602360000000902220100000400000000000800970000000403520100000622580100000300000000000500000000000500000000000300000000000300000000000210350000000400000000000301250100000100000000000600000000000600000000000800000000000700000000000400000000000600000000000400000000000600000000000600000000000600000000000200000000000300000000000200000000000100000000000600000000000200000000000500000000000500000000000600000000000500000000000)
 (.leaf 703680000000600000000000403440100000403860000000610970000000200000000000321820000000700000000000200000000000800000000000300000000000600000000000400000000000800000000000600000000000100000000000600000000000300000000000600000000000500000000000500000000000402480000000600000000000422930100000602610100000500000000000218680000000118680000000602860100000300000000000300000000000200000000000400000000000800000000000600000000000800000000000400000000000400000000000100000000000400000000000900000000000200000000000900000000000600000000000600000000000400000000000500000000000402810100000400000000000800000000000700000000000600000000000300000000000812160100000600000000000410180000000400000000000600770100000800000000000700000000000400000000000600840000000400000000000600000000000))
 (.node 1 (.leaf 600000000000400000000000400000000000600000000000400000000000600000000000800000000000900000000000500000000000500000000000800000000000400000000000600000000000600000000000500000000000500000000000500000000000500000000000800430000000601490000000400000000000800000000000400000000000600000000000400000000000400000000000900000000000800000000000800000000000400000000000400000000000800000000000500000000000400000000000600000000000600000000000901080100000600560000000605310100000600000000000601640100000100000000000600000000000600000000000400000000000900000000000600000000000400000000000700000000000824440000000700000000000600000000000800000000000400000000000700000000000500000000000600000000000600000000000500000000000600000000000600000000000500000000000500000000000400000000000)
 (.leaf 900000000000607140000000700000000000700000000000400000000000800000000000800000000000600000000000600000000000900000000000500000000000400000000000600000000000300000000000900000000000406740000000900000000000400000000000900000000000800000000000408720100000600000000000518480000000200000000000400000000000600000000000600000000000400000000000900000000000400000000000700000000000600000000000900000000000600000000000700000000000700000000000700000000000400000000000400000000000400000000000600000000000811240000000401890000000808060100000600000000000200000000000400000000000600000000000400000000000600000000000400000000000600000000000400000000000400000000000600000000000100000000000600000000000900000000000900000000000321980100000617360000000600000000000400000000000408340100000)))))))))
 (.node 128 (.node 64 (.node 32 (.node 16 (.node 8 (.node 4 (.node 2 (.node 1 (.leaf 605320100000600000000000400000000000600000000000900000000000900000000000800000000000600000000000403190000000800000000000800000000000900000000000900000000000500000000000800000000000700830000000600000000000800000000000601170000000903570000000607620000000412350100000600000000000900000000000600000000000800000000000800000000000700000000000600000000000000000000000403190000000600000000000400000000000600000000000611200100000400000000000600000000000300000000000400000000000800000000000702840000000611400000000800000000000200000000000600000000000602420100000607910100000604000000000505920100000407520000000419640000000600000000000400000000000400000000000400000000000600000000000600000000000400000000000400000000000700000000000100000000000600000000000600000000000400000000000)
 (.leaf 600000000000500000000000900000000000800000000000600000000000400000000000422640000000407450621994400230000000300000000000200000000000600000000000800000000000400280000000600000000000000000000000005200100000400000000000100000000000400750000000400000000000600000000000600000000000600000000000500000000000322300000000400000000000900000000000800000000000222000100000821840000000900000000000600000000000600000000000500000000000400000000000800900000000500000000000400000000000200000000000800000000000300000000000800000000000400000000000400000000000900000000000600000000000100000000000400000000000400000000000800000000000400000000000600000000000600000000000500000000000500000000000600000000000400100000000609230000000400000000000802100100000400000000000800000000000212520100000))
 (.node 1 (.leaf 800000000000400000000000400000000000800000000000400000000000600000000000600000000000400000000000400000000000118670000000600000000000400000000000600000000000600000000000200000000000100000000000800000000000100000000000600000000000300000000000900000000000400000000000808280100000604570000000500000000000401240000000803170100000800000000000500000000000500000000000400000000000100000000000200000000000100000000000400000000000300000000000600000000000400000000000600000000000600000000000100000000000300000000000400000000000500000000000300000000000800000000000600000000000600000000000800000000000804690000000600000000000400000000000600000000000500000000000800000000000400000000000400000000000800000000000200000000000400000000000400000000000916210611977800000000000400000000000)
 (.leaf 400000000000600000000000400000000000600000000000100000000000203750000000200000000000600000000000200000000000406610000000800000000000600000000000400000000000200650000000200650000000200000000000200000000000500000000000800000000000600000000000600000000000400000000000200000000000800000000000400000000000800000000000900000000000800000000000600000000000400000000000600000000000100000000000400000000000100000000000500000000000700000000000300000000000213000100000600000000000403250000000200000000000212640000000600000000000500000000000900000000000700000000000800000000000900000000000600000000000200000000000000000000000400000000000600000000000600000000000400000000000400000000000600000000000607660000000500000000000422560000000608000000000400320000000609740000000600000000000)))
 (.node 2 (.node 1 (.leaf 800000000000400000000000202740000000222880000000219670621955223260622001200000000000600000000000700000000000800000000000900000000000100000000000400000000000700000000000400000000000800000000000600000000000100000000000800000000000400000000000400000000000900000000000100000000000400000000000000000000000405240100000600000000000500000000000600000000000400000000000600000000000800000000000200000000000400520000000600000000000800000000000400000000000412670000000000000000000600000000000400000000000400000000000600000000000700000000000600000000000400000000000300000000000300000000000723580000000400000000000200000000000305530000000300000000000600000000000900000000000200000000000300000000000200330000000800000000000400000000000419700000000800000000000400000000000815540000000)
 (.leaf 800000000000300000000000200000000000300000000000200000000000200000000000600000000000800000000000700000000000800000000000400000000000600000000000600000000000400000000000200000000000200000000000202760000000300000000000617420000000900000000000900000000000800000000000700000000000600000000000319700621956500000000000500000000000400000000000800000000000700000000000100000000000300000000000100000000000008080100000200000000000200000000000400000000000400000000000200000000000200000000000400000000000400000000000700000000000400000000000800000000000600000000000622740000000400000000000600000000000200000000000400000000000200000000000200000000000600000000000701540000000600000000000900000000000400000000000600000000000400000000000600000000000300000000000400000000000600000000000))
 (.node 1 (.leaf 400000000000600000000000800000000000600000000000000000000000700000000000600000000000400000000000300000000000500000000000614480000000400000000000800000000000411480100000300010000000200010000000700000000000200000000000500000000000400000000000200000000000400000000000600000000000800000000000400000000000100000000000400000000000200000000000600350000000700000000000800000000000800000000000202800621939608940000000402930000000500000000000100000000000402600000000700000000000200000000000200000000000300000000000200000000000600000000000400000000000400000000000200000000000400000000000600000000000400000000000700000000000600000000000606110100000204670000000600000000000500000000000100000000000600000000000900000000000300000000000900000000000800000000000100000000000500000000000)
 (.leaf 400000000000300000000000200000000000200000000000100000000000400000000000400000000000300000000000200000000000423910622014800000000000600000000000900000000000200000000000300000000000400000000000400000000000617430000000300000000000600010000000800000000000600000000000602310100000400000000000300000000000509820100000400000000000401860000000300000000000600000000000500000000000400000000000100000000000400000000000200000000000100000000000400000000000800000000000600000000000400000000000600000000000400000000000600000000000400000000000900000000000800000000000600000000000800000000000411270100000111030100000800000000000800000000000700000000000402430100000300000000000100000000000506640100000405270000000800000000000300000000000300000000000300000000000500000000000200020000000))))
 (.node 4 (.node 2 (.node 1 (.leaf 300000000000200140000000800140000000400000000000800500000000400000000000200000000000400000000000000000000000300000000000000000000000300000000000800000000000600000000000600000000000900000000000600000000000200000000000200000000000400030000000700000000000400000000000300000000000400000000000500000000000600000000000400000000000400000000000604860000000600000000000000000000000400000000000400000000000400000000000900000000000600000000000400030000000600000000000200000000000100000000000600000000000200000000000400000000000600020000000400000000000700000000000700000000000400000000000010620100000000000000000400000000000600000000000905930100000300000000000400000000000600000000000622410000000800000000000600000000000600000000000400000000000200000000000700030000000801280000000)
 (.leaf 200000000000400000000000100000000000900000000000600000000000700000000000400000000000600000000000700000000000700020000000400000000000600000000000400000000000700000000000000000000000000000000000900000000000400000000000500000000000800000000000800000000000919861421922600120000000200000000000600000000000900000000000600000000000700000000000600000000000300000000000400000000000400000000000800000000000600000000000200000000000400120000000500000000000800000000000400000000000421610000000500000000000800000000000400000000000800020000000800020000000700000000000700000000000423880622006000000000000400000000000300000000000900000000000100000000000900000000000200000000000714350611956814060621951600000000000800000000000500000000000800000000000800000000000600000000000000000000000))
 (.node 1 (.leaf 800000000000400000000000700000000000400000000000600000000000400000000000500000000000200000000000200000000000400040000000700000000000800000000000600000000000800000000000700000000000900000000000300000000000600000000000400000000000600000000000200000000000700000000000813570000000713570621986600000000000500000000000218770000000400000000000405080100000814180611938900000000000300000000000100000000000300000000000300000000000400040000000400090000000200000000000200000000000400000000000600000000000100000000000413610621979600000000000400000000000600000000000101780000000400000000000400210000000400000000000600000000000000000000000000000000000800000000000600000000000900000000000200000000000200000000000900000000000600000000000300000000000600000000000400000000000500000000000)
 (.leaf 600000000000500000000000700000000000115390621977400000000000300000000000600000000000600000000000600000000000400000000000619950000000100000000000100000000000600220000000600000000000600000000000400000000000600000000000200000000000600000000000500000000000600000000000300000000000202440000000500000000000700000000000700000000000400000000000600000000000400000000000800000000000415980621969315890621972400000000000400000000000002300100000400000000000400000000000300000000000500000000000500000000000600000000000800000000000000000000000600000000000400000000000600000000000600000000000400000000000000000000000600000000000200000000000200000000000211970000000800000000000600000000000200000000000400000000000200000000000700000000000100000000000500000000000400000000000600000000000)))
 (.node 2 (.node 1 (.leaf 400000000000600000000000600000000000400000000000000000000000000000000000700000000000400000000000800000000000900000000000600000000000314580611968200000000000200000000000200000000000500000000000700000000000600000000000800000000000100000000000400000000000400000000000400000000000300000000000600000000000600000000000616540000000516430000000800000000000000000000000100000000000600000000000100000000000600000000000800000000000415710000000600000000000800000000000400000000000400000000000400000000000700000000000500000000000800000000000800000000000700000000000600000000000400000000000400000000000413310100000416520000000800000000000800000000000800000000000900000000000900000000000400000000000800000000000900000000000200000000000600000000000400000000000200000000000600000000000)
 (.leaf 600000000000317550000000600000000000600000000000200000000000400000000000500000000000500000000000400000000000400000000000400000000000900000000000900000000000900000000000900000000000600000000000400000000000300000000000500000000000000000000000800000000000800000000000600000000000400000000000000000000000120160621997600000000000400000000000700000000000800000000000115020000000400000000000600000000000900000000000800000000000800000000000000000000000624710000000200000000000600000000000400000000000500000000000500000000000200000000000600000000000417590621963800000000000420200611991300000000000400000000000400000000000800000000000702330000000000000000000613250000000408430000000600000000000800000000000900000000000500000000000500000000000700000000000300000000000202060000000))
 (.node 1 (.leaf 400000000000617530621978600000000000420240621951606440000000600000000000200000000000700000000000500000000000400000000000900000000000800000000000400000000000800000000000400000000000900000000000000000000000309990000000620260621951400000000000120290621941400000000000400000000000600000000000100000000000200000000000400000000000400000000000800000000000620360000000200000000000600000000000400000000000215080621940200000000000500000000000800000000000600000000000000000000000408010000000600000000000800000000000800000000000800000000000800000000000700000000000216150000000200000000000500000000000618830000000700000000000000000000000220370000000300000000000600000000000400000000000300000000000200000000000600000000000500000000000800000000000211740611961400000000000000000000000)
 (.leaf 600000000000300000000000900000000000600000000000500000000000400000000000600000000000200000000000200000000000200000000000600000000000400000000000600000000000200000000000000000000000600000000000600000000000200000000000200000000000500000000000200000000000400000000000306380000000700000000000800000000000600000000000600000000000400000000000000000000000600000000000600000000000200000000000600000000000600000000000400000000000200000000000400000000000600000000000600000000000616110000000400000000000300000000000900000000000200000000000200000000000515490611974900000000000400000000000800000000000404050100000800000000000600000000000600000000000300000000000619340621954200000000000210530621974300000000000800000000000800000000000500000000000000000000000800000000000100000000000)))))
 (.node 8 (.node 4 (.node 2 (.node 1 (.leaf 200000000000200000000000400000000000022450100000200000000000200000000000600000000000300000000000200000000000600000000000700000000000800000000000400000000000000000000000600000000000614340000000320500621986600000000000500000000000600000000000800000000000800000000000600000000000214050611962600000000000100000000000000000000000300000000000300000000000600000000000300000000000200000000000300000000000300000000000300000000000718150000000200000000000800000000000200000000000600000000000800000000000400000000000200000000000100000000000100000000000700000000000408870000000200000000000300000000000200000000000600000000000200000000000400000000000300000000000200000000000400000000000200000000000200000000000400000000000300000000000200000000000200000000000600000000000400000000000)
 (.leaf 600000000000600000000000404680611974002620100000005570000000605570100000200000000000200000000000600000000000917630621952320580000000602690000000200000000000200000000000200000000000500000000000500000000000300000000000600000000000200000000000400000000000700000000000700000000000200000000000400000000000900000000000400000000000021950100000900000000000600000000000100000000000600000000000400000000000220630611942600000000000200000000000500000000000300000000000600000000000500000000000200000000000700000000000800000000000900000000000700000000000400000000000200000000000607750000000100000000000600000000000800000000000500000000000300000000000603800100000400000000000300000000000800000000000700000000000700000000000800000000000400000000000400000000000400000000000900000000000))
 (.node 1 (.leaf 400000000000100000000000200000000000220680612006400000000000600000000000624100622009600000000000505610100000200000000000600000000000800000000000700000000000800000000000800000000000800000000000000000000000900000000000600000000000400000000000400000000000100000000000600000000000200000000000600000000000600000000000616070000000400000000000400000000000600000000000800000000000800000000000900000000000600000000000500000000000600000000000500000000000900000000000400000000000200000000000400000000000200000000000600620000000400620000000815970000000600000000000600000000000600000000000100000000000800000000000800000000000200000000000800000000000400000000000400000000000200000000000616060621979500000000000600000000000400000000000600000000000400000000000400000000000000000000000)
 (.leaf 600000000000700000000000600000000000600000000000400000000000200000000000600000000000400000000000700000000000300000000000200000000000600000000000100000000000400000000000821520000000800000000000624610000000500000000000914600000000600000000000400000000000200000000000600000000000200000000000600000000000400000000000600000000000400000000000900000000000600000000000600000000000600000000000800000000000700000000000300000000000300000000000100000000000400000000000800000000000114570000000914600611916614870000000218700000000800000000000800000000000600000000000400000000000800000000000400000000000300000000000500000000000400000000000600000000000200000000000300000000000100000000000200000000000200000000000400000000000000000000000400000000000200000000000400000000000400000000000)))
 (.node 2 (.node 1 (.leaf 800000000000700000000000800000000000700000000000600000000000600000000000800000000000300000000000200000000000200000000000200000000000800000000000820760621995624590622006600000000000500000000000400000000000600000000000600000000000600000000000300000000000600000000000600000000000200000000000300000000000200000000000600000000000800000000000900000000000100000000000315000611947600000000000400000000000800000000000700000000000800000000000600000000000600000000000600000000000600000000000200000000000500000000000200000000000200000000000400000000000900000000000600000000000300000000000200000000000623670622007200000000000400000000000211390611964400000000000400000000000300000000000800000000000800000000000700000000000600000000000700000000000900000000000700000000000800000000000)
 (.leaf 804710100000400000000000800000000000600000000000800000000000300000000000200000000000600000000000900000000000600000000000500000000000800000000000600000000000600000000000216840000000504040000000605750000000600000000000100000000000400000000000800000000000700000000000600000000000700000000000600000000000800000000000600000000000400000000000000000000000600000000000922280000000800000000000800000000000620820612006903320621962300000000000800000000000200000000000324430000000300000000000216830000000600000000000600000000000700000000000200000000000100000000000400000000000800000000000300000000000320830000000200000000000200000000000400000000000900000000000400000000000400000000000100000000000200000000000600000000000400000000000500000000000000000000000600000000000400000000000))
 (.node 1 (.leaf 400000000000100000000000117910611979316800000000323960622007400000000000000000000000600000000000500000000000000000000000400000000000800000000000300000000000000000000000600000000000416740000000200000000000600000000000200000000000508070000000200000000000600000000000900000000000000000000000400000000000300000000000800000000000800000000000700000000000900000000000300000000000200000000000600000000000200000000000200000000000224000000000900000000000400000000000200000000000600000000000500000000000300000000000400000000000200000000000200000000000300000000000200000000000900000000000800000000000300000000000800000000000600000000000500000000000100000000000600000000000500000000000500000000000400000000000600000000000500000000000100000000000400000000000200000000000300000000000)
 (.leaf 800000000000600000000000600000000000200000000000800000000000600000000000600000000000400000000000200000000000900000000000800000000000900000000000800000000000600000000000800000000000100000000000400000000000600000000000400000000000600000000000800000000000200000000000600000000000200000000000800000000000200000000000200000000000300000000000500000000000415070000000200000000000200000000000200000000000100000000000600000000000800000000000800000000000300000000000500000000000600000000000900000000000200000000000200000000000300000000000600000000000800000000000800000000000600000000000309080611976316920000000600000000000623820622010100000000000500000000000500000000000500000000000400000000000600000000000600000000000300000000000200000000000200000000000200000000000400000000000))))
 (.node 4 (.node 2 (.node 1 (.leaf 800000000000800000000000800000000000800000000000400000000000200000000000601960000000400000000000200000000000200000000000200000000000400000000000200000000000100000000000600000000000900000000000200000000000600000000000100000000000603390000000800000000000600000000000900000000000200000000000200000000000400000000000100000000000800000000000800000000000205600621981800000000000500000000000221030000000603120000000909800100000500000000000200000000000200000000000200000000000100000000000700000000000600000000000600000000000800000000000300000000000616950621998200000000000200000000000404600611974800000000000400000000000400000000000200000000000100000000000200000000000200000000000400000000000600000000000600000000000400000000000600000000000900000000000500000000000622290100000)
 (.leaf 400000000000800000000000600000000000600000000000500000000000519050000000801720621974800000000000700000000000400000000000200000000000700000000000200000000000600000000000100000000000200000000000600000000000700000000000800000000000600000000000500000000000200000000000600000000000501820100000500000000000500000000000200000000000900000000000400000000000600000000000800000000000400000000000600000000000800000000000400000000000100000000000100000000000400000000000800000000000900000000000600000000000900000000000600000000000800000000000600000000000200000000000400000000000400000000000600000000000800000000000600000000000400000000000800000000000600000000000117010000000900000000000400000000000800000000000100000000000600000000000400000000000200000000000800000000000321070000000))
 (.node 1 (.leaf 219220000000800000000000200000000000600000000000400000000000200000000000400000000000800000000000700000000000500000000000500000000000424190000000300000000000400000000000700000000000200000000000200000000000600000000000300000000000800000000000900000000000800000000000200000000000200000000000200000000000800000000000600000000000200000000000400000000000400000000000800000000000600000000000600000000000800000000000200000000000600000000000700000000000823350000000600000000000500000000000400000000000400000000000800000000000400000000000900000000000900000000000200000000000700000000000200480000000621080000000300000000000400000000000800000000000600000000000400000000000615670000000600000000000900000000000800000000000200000000000600180000000900000000000600000000000900000000000)
 (.leaf 300000000000218180000000200000000000300000000000300000000000200000000000500000000000417160611987600000000000500000000000900000000000800000000000300000000000100000000000100000000000800000000000800000000000200000000000300000000000800000000000500000000000200000000000800000000000800000000000200000000000700000000000400000000000200000000000300000000000600000000000600000000000200000000000400000000000100000000000800000000000405470100000600000000000800000000000100000000000400000000000600000000000600000000000200000000000600000000000800000000000600000000000300000000000200000000000800000000000802270611983900000000000800000000000600000000000200000000000500000000000400000000000100000000000200000000000200000000000200000000000800000000000800000000000800000000000400000000000)))
 (.node 2 (.node 1 (.leaf 600000000000900000000000500000000000100000000000300000000000218060611987800000000000800000000000800000000000100000000000400000000000100000000000900000000000200000000000200000000000600000000000600000000000600000000000800000000000200000000000200000000000800000000000800000000000900000000000400000000000400000000000800000000000400000000000600000000000600000000000511070100000100000000000205250000000300000000000600000000000200000000000900000000000200000000000300000000000600000000000600000000000300000000000600000000000200000000000400000000000800000000000900000000000800000000000800000000000900000000000500000000000219080000000200000000000200000000000300000000000200000000000400000000000100000000000800000000000200000000000800000000000600000000000200000000000800000000000)
 (.leaf 700000000000800000000000800000000000821170621965800000000000500000000000200000000000424240622016200000000000400000000000400000000000800000000000800000000000200000000000300000000000500000000000900000000000700000000000800000000000500000000000300000000000300000000000000000000000004060100000400000000000900000000000600000000000600000000000400000000000400000000000100000000000800000000000800000000000300000000000800000000000800000000000800000000000400000000000200000000000200000000000600000000000900000000000800000000000800000000000300000000000400000000000200000000000200000000000400000000000700000000000800000000000100000000000200000000000500000000000600000000000600000000000600000000000600000000000800000000000800000000000200000000000900000000000500000000000123480622011))
 (.node 1 (.leaf 900000000000600000000000800000000000400000000000800000000000400000000000200000000000200000000000800000000000200000000000500000000000500000000000800000000000600000000000500000000000700000000000400000000000400000000000600000000000300000000000200000000000500000000000200000000000300000000000600000000000600000000000200000000000600000000000400000000000100000000000400000000000200000000000500000000000300000000000200000000000200000000000200000000000600000000000200000000000400000000000400000000000900000000000800000000000100000000000200000000000300000000000300000000000400000000000200000000000500000000000600000000000400000000000700000000000400000000000118660000000600000000000200000000000600000000000300000000000300000000000300000000000405140100000618660000000600000000000)
 (.leaf 300000000000700000000000600000000000400000000000200000000000600000000000200000000000400000000000300000000000600000000000400000000000618660000000500000000000900000000000600000000000300000000000900000000000800000000000700000000000400000000000300000000000500000000000200000000000300000000000300000000000600000000000618260621987306960000000500000000000506650100000400000000000800000000000200000000000800000000000700000000000400000000000600000000000500000000000900000000000800000000000900000000000700000000000418660000000022250100000600000000000600000000000200000000000200000000000200000000000500000000000200000000000800000000000400000000000400000000000600000000000800000000000818660000000500000000000600000000000200000000000200000000000600000000000604240000000800000000000))))))
 (.node 16 (.node 8 (.node 4 (.node 2 (.node 1 (.leaf 800000000000800000000000800000000000800000000000400000000000600000000000200000000000600000000000600000000000800000000000600000000000400000000000002960100000500000000000500000000000700000000000600000000000800000000000800000000000622150000000900000000000803340000000800000000000600000000000400000000000400000000000400000000000400000000000200000000000600000000000500000000000413120611975800000000000500000000000700000000000200000000000400000000000900000000000200000000000600000000000600000000000800000000000900000000000100000000000611000621966200000000000700000000000400000000000900000000000900000000000900000000000600000000000800000000000800000000000200000000000900000000000800000000000800000000000800000000000606800621961900000000000800000000000000000000000600000000000)
 (.leaf 900000000000800000000000800000000000900000000000600000000000400000000000800000000000600000000000600000000000400000000000300000000000300000000000500000000000900000000000800000000000800000000000700000000000700000000000800000000000800000000000700000000000100000000000600000000000400000000000900000000000200000000000900000000000600000000000800000000000900000000000800000000000800000000000800000000000800000000000800000000000800000000000300000000000200000000000600000000000400000000000800000000000605060000000800050000000800000000000500000000000400000000000800000000000800000000000600000000000600000000000800000000000800000000000800000000000421250000000800000000000900000000000500000000000700000000000800000000000600000000000821260621989400000000000800000000000800000000000))
 (.node 1 (.leaf 800000000000800000000000400310000000800000000000900000000000900000000000600000000000900000000000800000000000400000000000400000000000600000000000900000000000900000000000700000000000800000000000400000000000400000000000400000000000800000000000400000000000200070000000900000000000800000000000300000000000400000000000700000000000705280621953200000000000600000000000600000000000900000000000800000000000800000000000600000000000600000000000600000000000300000000000900000000000100000000000700000000000400000000000700000000000200000000000200000000000600000000000300000000000600000000000900000000000800000000000800000000000800000000000700000000000500000000000800000000000600000000000500000000000600000000000800000000000700000000000700000000000600000000000600000000000200000000000)
 (.leaf 600070000000900000000000600000000000800000000000800000000000822240000000800000000000800000000000800000000000600000000000500000000000800000000000400000000000600000000000800000000000400000000000600000000000800000000000617980000000200000000000200000000000700000000000700000000000800000000000800000000000600000000000500000000000200000000000300000000000300000000000300000000000600000000000100000000000200000000000500000000000500000000000800000000000800000000000800000000000800000000000800000000000600000000000800000000000600000000000200000000000900000000000800000000000600000000000500000000000500000000000500000000000209500100000200000000000600000000000800000000000600000000000500000000000500000000000400000000000200000000000700000000000900000000000200000000000200000000000)))
 (.node 2 (.node 1 (.leaf 600000000000800000000000500000000000500000000000800000000000900000000000600000000000400000000000200000000000300000000000300000000000300000000000800000000000500000000000400000000000400000000000800000000000600000000000400000000000123170000000200000000000600000000000200000000000600000000000600000000000300000000000800000000000500000000000700000000000400000000000900000000000200000000000400000000000800300000000800000000000600000000000500000000000700000000000500000000000500000000000800000000000400000000000800000000000400000000000100000000000300000000000800000000000400000000000800000000000600000000000400000000000200000000000400000000000402530621982100000000000400000000000400000000000200000000000600000000000800000000000300000000000300000000000219090000000717290611998)
 (.leaf 800000000000500000000000400000000000600000000000400000000000300000000000700000000000600000000000400000000000900000000000200000000000400000000000201010000000700000000000801450000000800000000000900000000000500000000000100000000000600000000000400000000000200000000000400000000000400000000000400000000000700000000000700000000000200000000000800000000000600000000000400000000000800000000000600000000000400000000000800000000000500000000000600000000000300000000000400000000000100000000000600000000000100000000000900000000000500000000000700000000000500000000000400000000000400000000000800000000000800000000000600000000000800000000000600000000000600000000000900000000000600000000000100000000000400000000000800000000000800000000000800000000000300000000000400000000000600000000000))
 (.node 1 (.leaf 400000000000700000000000701100000000701100000000500000000000600000000000300000000000600000000000500000000000000000000000800000000000600000000000600000000000600000000000400000000000400000000000100000000000600000000000800000000000600000000000300000000000500000000000800000000000400000000000600000000000400000000000200000000000600000000000800000000000100000000000100000000000600000000000600000000000200000000000000000000000600000000000400000000000100000000000300000000000600000000000400000000000915210621969200000000000600000000000900000000000700000000000400000000000200000000000800000000000300000000000300000000000200000000000402670000000800000000000100000000000600000000000400000000000300000000000500000000000000000000000600000000000400000000000700000000000700000000000)
 (.leaf 300000000000600000000000800000000000608030000000200000000000200000000000700000000000900000000000600000000000400000000000200000000000300000000000610430000000800000000000600000000000300000000000400000000000400000000000300000000000300000000000600000000000300000000000400000000000300000000000900000000000500000000000200000000000800000000000511960100000800000000000700000000000600000000000200000000000300000000000300000000000200000000000600000000000500000000000200000000000400000000000800000000000600000000000500000000000500000000000500000000000400000000000400000000000600000000000800000000000500000000000500000000000300000000000500000000000200000000000400000000000600000000000400000000000800000000000500000000000800000000000300000000000400000000000500000000000500000000000))))
 (.node 4 (.node 2 (.node 1 (.leaf 700000000000600000000000200000000000200000000000300000000000200000000000400000000000500000000000400000000000404250000000800000000000200000000000300000000000300000000000500000000000200000000000100000000000404250000000614550000000300000000000200000000000200000000000200000000000400000000000700000000000500000000000800000000000200000000000604800000000200000000000724300000000200000000000100000000000200000000000200000000000300000000000400000000000200000000000600000000000800000000000200000000000604650000000600000000000600000000000200000000000600000000000200000000000500000000000200000000000200000000000200000000000113380100000200000000000100000000000100000000000400000000000400000000000000000000000600000000000100000000000100000000000200000000000200000000000400000000000)
 (.leaf 200000000000400000000000200000000000600000000000600000000000400000000000200000000000200000000000002280100000400000000000300000000000500000000000100000000000600000000000800000000000400000000000200000000000300000000000400000000000500000000000200000000000300000000000800000000000400000000000600000000000400000000000800000000000200000000000100000000000700000000000400000000000200000000000600000000000200000000000600000000000200000000000200000000000200000000000600000000000800000000000700000000000700000000000500000000000823150000000000000000000000000000000800000000000600000000000400000000000500000000000000000000000200000000000200000000000300000000000100000000000300000000000600000000000400000000000218950000000500000000000600000000000300000000000600000000000600000000000))
 (.node 1 (.leaf 417780000000600400000000200000000000600000000000600000000000200000000000500000000000500000000000400000000000400000000000400000000000900000000000600000000000500000000000500000000000100000000000200000000000514010621968600000000000600000000000600000000000700000000000500000000000600000000000600000000000600000000000500000000000500000000000600000000000700000000000400000000000709560100000700000000000600000000000800000000000500000000000600000000000600000000000500000000000400000000000200000000000600000000000900000000000900000000000800000000000800000000000200000000000200000000000700000000000200000000000100000000000000000000000400000000000500000000000500000000000500000000000500000000000600000000000400000000000218320000000900000000000000000000000000000000000500000000000)
 (.leaf 500000000000500000000000500000000000300000000000500000000000500000000000600000000000400000000000600000000000500000000000200000000000300000000000600760000000400000000000401300000000200000000000000000000000600000000000600000000000600920000000600000000000500000000000600000000000500000000000600010000000800020000000800020000000500000000000600000000000600000000000400000000000800000000000500000000000602520000000600000000000800000000000500000000000400000000000400000000000600000000000400000000000800000000000800000000000800000000000400000000000800000000000900000000000600000000000600000000000500000000000500000000000600000000000400000000000800000000000600000000000500000000000400000000000400000000000800000000000800000000000800000000000800000000000800000000000800000000000)))
 (.node 2 (.node 1 (.leaf 800000000000800000000000800000000000800000000000800000000000800000000000800000000000900000000000400000000000800000000000800000000000800000000000600000000000500000000000500000000000800000000000800000000000800000000000900000000000800000000000800000000000800000000000900000000000800000000000500000000000600000000000400000000000800000000000800000000000700000000000800000000000800000000000800000000000800000000000800000000000600000000000510150100000800000000000800000000000800000000000700000000000505970000000800000000000700000000000800000000000600000000000400000000000500000000000200000000000200000000000100000000000400000000000800000000000800000000000700000000000400000000000600000000000100000000000100000000000100000000000100000000000100000000000100000000000800000000000)
 (.leaf 800000000000800000000000800000000000800000000000700000000000800000000000700000000000800000000000800000000000800000000000600000000000600000000000100000000000400000000000400000000000400000000000600000000000900000000000500000000000400000000000200000000000500000000000400000000000700000000000600000000000800000000000400000000000400000000000400000000000400000000000600000000000400000000000400000000000800000000000400000000000500000000000500000000000100000000000109570100000600000000000900000000000400000000000400000000000400000000000600000000000500000000000400000000000300000000000500000000000600000000000400000000000800000000000800000000000600000000000500000000000400000000000100000000000600000000000500000000000400000000000400000000000600000000000600000000000400000000000))
 (.node 1 (.leaf 600000000000408950100000400000000000400000000000100000000000500000000000400000000000900000000000600000000000400000000000800000000000600000000000809400100000622350000000500000000000400000000000100000000000100000000000100000000000100000000000100000000000100000000000600000000000400000000000800000000000700000000000800000000000600000000000705160000000800000000000900000000000500000000000500000000000612480000000600000000000400000000000400000000000400000000000100000000000100000000000100000000000100000000000200000000000400000000000500000000000600000000000400000000000600000000000800000000000700000000000400000000000600000000000600000000000800000000000600000000000400000000000400000000000800000000000400000000000621570100000511630100000800000000000600000000000600000000000)
 (.leaf 700000000000600000000000600000000000400000000000600000000000600000000000400000000000700000000000500000000000600000000000500000000000606840100000502350100000500000000000400000000000200000000000600000000000500000000000422530000000600000000000400000000000900000000000600000000000300000000000600000000000900000000000900000000000400000000000500000000000400000000000600000000000500000000000400000000000502880100000400000000000200000000000601140000000601930000000806851421970500000000000700000000000800000000000400000000000500000000000400000000000421830100000600000000000600000000000600000000000400000000000600000000000400000000000900000000000100000000000400000000000600000000000800000000000500000000000400000000000600000000000400000000000604480100000300000000000901930000000)))))
 (.node 8 (.node 4 (.node 2 (.node 1 (.leaf 400000000000900000000000401610000000300000000000600000000000600000000000100000000000300000000000400000000000600000000000700000000000400000000000600000000000522420100000522420000000400000000000100000000000400000000000200000000000803690100000400000000000408260100000612000100000500000000000500000000000900000000000400000000000400000000000200000000000319420621972300000000000200000000000600000000000800000000000400000000000600000000000600000000000400000000000400000000000500000000000200000000000100000000000600000000000600000000000800000000000600000000000200000000000400000000000200000000000600000000000600000000000501371421963600000000000300000000000400000000000400000000000300000000000600000000000100000000000400000000000600000000000600000000000400000000000600000000000)
 (.leaf 600000000000600000000000400000000000400000000000400000000000600000000000400000000000400000000000600000000000400060000000600000000000900000000000700000000000500000000000400000000000700000000000700000000000200000000000608191421970300000000000601790000000300000000000400000000000500000000000600000000000600000000000400000000000900000000000400000000000400000000000600000000000400000000000400000000000400000000000200000000000500000000000407070000000400000000000600060000000400060000000600000000000600000000000800000000000500000000000500000000000500000000000600000000000302020000000600000000000300000000000600000000000800000000000800000000000600000000000400000000000600000000000200000000000900000000000400000000000600000000000400000000000700000000000400000000000600000000000))
 (.node 1 (.leaf 600000000000200000000000322710100000500000000000800000000000400000000000200000000000600000000000900000000000400000000000800000000000600000000000400000000000300000000000600000000000600000000000300000000000600000000000300000000000100000000000100000000000800000000000900000000000600000000000800000000000600000000000400000000000600000000000400000000000400000000000406400100000100000000000400000000000700000000000601270000000400000000000619500000000600000000000600000000000400000000000600000000000400000000000600000000000600000000000700000000000400000000000400000000000600000000000400000000000600000000000500000000000400000000000800000000000400000000000813030100000600000000000200000000000422540000000700000000000200000000000400000000000618440000000606260100000600000000000)
 (.leaf 900000000000700000000000600000000000600000000000400000000000600000000000200000000000400000000000400000000000600000000000800000000000400000000000600000000000600000000000400000000000803500100000400000000000601420000000300000000000400000000000500000000000413280000000400000000000900000000000600000000000607030000000100000000000600000000000400000000000400000000000800000000000600000000000800000000000500000000000400000000000400000000000700000000000900000000000400000000000113530000000611570100000603110100000500000000000500000000000500000000000300000000000401070000000700000000000200000000000800000000000600000000000400000000000800000000000400000000000400000000000400000000000400000000000300000000000100000000000400000000000400000000000700000000000600000000000400000000000)))
 (.node 2 (.node 1 (.leaf 400000000000400000000000607240100000200000000000100000000000602921421944500000000000419540000000800000000000700000000000600000000000900000000000900000000000400000000000800000000000600000000000400000000000400000000000600000000000412070100000800420000000600000000000602920000000222990100000300000000000200000000000400000000000800000000000600000000000800000000000700000000000800000000000400000000000600000000000400000000000300000000000600000000000100000000000600000000000400000000000400000000000600000000000600000000000200000000000200080000000401590000000622520100000601830000000500000000000600000000000400000000000600000000000100000000000700000000000600000000000300000000000400000000000800000000000500000000000600000000000403350100000400000000000410510100000607420000000)
 (.leaf 500000000000200000000000500000000000300000000000600000000000400000000000800000000000400000000000400000000000712660100000200000000000300000000000200000000000100000000000400000000000400000000000800000000000500000000000400000000000500000000000700000000000500000000000400000000000604310100000600000000000622230000000404880100000500000000000400000000000300000000000300000000000421600000000600000000000400000000000400000000000600000000000600000000000300000000000700000000000900000000000412630100000500000000000403050100000200000000000900000000000800080000000400000000000600970100000600660000000500000000000300000000000200130000000100000000000800000000000100000000000200000000000800000000000400000000000600000000000600000000000800000000000600000000000600000000000200000000000))
 (.node 1 (.leaf 200000000000400000000000500000000000200000000000400000000000200000000000403680000000600000000000200000000000802360000000700000000000400000000000300000000000700000000000300000000000300000000000600000000000400000000000800000000000400000000000600000000000600000000000600000000000300000000000300000000000422600000000600000000000400000000000403860100000610970100000210350000000510350100000219060000000303270100000600000000000600000000000600000000000600000000000200000000000200000000000200000000000600000000000600000000000900000000000402480000000600000000000400000000000800000000000300000000000621820000000400000000000600000000000100000000000600000000000400000000000100000000000400000000000700000000000600000000000600000000000300000000000100000000000300000000000400000000000)
 (.leaf 400000000000600000000000600000000000608820000000410180100000500000000000300000000000600000000000600000000000100000000000300000000000600840000000400840000000600000000000600000000000700000000000400000000000400000000000800000000000800000000000600000000000500000000000600000000000800000000000600000000000700000000000400000000000600000000000900000000000400000000000424440000000600000000000800000000000500000000000400000000000800000000000800000000000900560000000900590000000500000000000600000000000800000000000800840000000800000000000600000000000800000000000800000000000400000000000800000000000600000000000400000000000300000000000607820100000800000000000900000000000500000000000400000000000800000000000900000000000700000000000900000000000400000000000600000000000300000000000))))
 (.node 4 (.node 2 (.node 1 (.leaf 406740100000400000000000400000000000700000000000500000000000600000000000800000000000400000000000400000000000600000000000800000000000800000000000300000000000200000000000600000000000401890000000500000000000600000000000600000000000700000000000600000000000600000000000900000000000400000000000700000000000400000000000900000000000800000000000800000000000100000000000600000000000900000000000600000000000700830000000400000000000617361411975600000000000400000000000409150100000800000000000500000000000100000000000300000000000400000000000700000000000000000000000403190100000400000000000400000000000702840100000900000000000601170000000622900100000421770000000600000000000800280000000600000000000103190000000400000000000600000000000400000000000800000000000900000000000700000000000)
 (.leaf 500000000000900000000000311400100000600000000000603380100000600000000000604000000000707520100000600000000000400000000000400000000000400000000000300000000000400000000000600000000000400000000000800000000000700000000000600000000000400000000000600000000000600000000000600000000000921840100000800000000000900000000000500000000000400470000000218340000000600900100000200230000000800000000000100280000000900000000000600000000000000000000000200000000000900000000000800000000000100000000000900000000000600000000000700000000000900000000000600000000000400000000000700000000000607330000000500000000000400000000000300000000000600000000000100000000000100000000000900000000000400000000000400000000000400000000000700000000000300000000000600000000000500000000000922300621952605330000000))
 (.node 1 (.leaf 609230100000500000000000400000000000922190721974600000000000400000000000400000000000400000000000200000000000100000000000600000000000602000000000400000000000222120000000700000000000600000000000200000000000600000000000900000000000600000000000400000000000604570000000201240000000418931421927800000000000600000000000400000000000616210000000904170100000600000000000400000000000800000000000600000000000400000000000400000000000400000000000500000000000600000000000900000000000800000000000410590000000600000000000400000000000612830100000400000000000400000000000400000000000400000000000200000000000200000000000100000000000400000000000600000000000700000000000400000000000400000000000800000000000100000000000600000000000600000000000703300000000900000000000400000000000600000000000)
 (.leaf 400000000000600000000000400000000000800000000000900000000000900000000000400000000000200000000000400000000000900000000000400000000000600000000000300000000000200000000000600000000000100600000000600650000000400650000000200000000000200000000000500000000000400000000000900000000000200000000000400000000000400000000000600000000000807200000000900000000000400000000000400000000000600000000000400000000000900000000000300000000000422560100000600000000000608000100000800320000000602120000000609740100000600000000000400000000000200000000000212640100000800000000000400000000000400000000000400000000000400000000000200000000000800000000000700000000000400000000000400000000000604230000000400850000000600000000000600000000000219680621943322880000000119670000000500000000000500000000000)))
 (.node 2 (.node 1 (.leaf 900000000000800000000000600000000000400000000000100000000000300000000000100000000000400000000000600000000000400000000000900000000000400000000000200000000000400000000000600000000000600000000000800000000000400000000000600000000000400000000000100000000000300000000000800000000000400000000000600000000000900000000000200000000000300000000000206510000000600000000000200331421950400000000000200000000000500000000000400000000000900000000000600000000000200000000000400000000000411620000000200000000000400000000000700000000000700000000000800000000000400000000000200000000000600000000000400000000000400000000000600000000000600000000000810900100000500000000000400000000000600000000000200000000000200000000000600000000000300000000000400000000000200000000000600000000000400000000000)
 (.leaf 800000000000400000000000600000000000600000000000600000000000600000000000400000000000600000000000614480611956200000000000408150100000800000000000400000000000300000000000400000000000900350000000400000000000200000000000419190621949600000000000402600000000800000000000400000000000400000000000200000000000900000000000400000000000600000000000400000000000400000000000200000000000400000000000400000000000200000000000600000000000400000000000813220100000400000000000400000000000500000000000400000000000400000000000200000000000100000000000400000000000800000000000300000000000700000000000600000000000800000000000600000000000900010000000204670621927700000000000400000000000400000000000600000000000600000000000200000000000400000000000500000000000400000000000500000000000500000000000))
 (.node 1 (.leaf 400000000000000000000000100020000000411900100000423490622010600000000000600000000000400000000000800000000000400000000000600000000000400000000000200000000000400030000000217800000000200000000000505270100000300000000000400000000000400000000000100000000000400140000000400500000000400000000000900000000000800000000000600000000000600000000000500000000000600000000000400000000000400000000000601860000000300000000000300000000000500000000000008550100000400000000000800000000000400000000000000000000000400000000000200000000000000000000000300000000000400000000000700000000000400000000000600000000000200000000000600040000000801280100000600000000000600000000000400000000000400020000000400000000000000000000000000000000000400000000000600000000000622410100000900000000000817450621964)
 (.leaf 600000000000300000000000100000000000900040000000200000000000400000000000800000000000600000000000800000000000400000000000600000000000400000000000400000000000600000000000800000000000800000000000218420621949300120000000600000000000200000000000800000000000600000000000800020000000700020000000400000000000000000000000600000000000900000000000500000000000400000000000400000000000900000000000600000000000900030000000200000000000700000000000800000000000600000000000400000000000400000000000600000000000600000000000300000000000400040000000800120000000800000000000000000000000700000000000600000000000424200000000000000000000600000000000604530000000500000000000500000000000613690611909600000000000500000000000010330100000000000000000600000000000000000000000913160611964300000000000)))))))
 (.node 32 (.node 16 (.node 8 (.node 4 (.node 2 (.node 1 (.leaf 800000000000200000000000300000000000100000000000800040000000400000000000300000000000118430621973300000000000500000000000200000000000000000000000700000000000400210000000600000000000400000000000600000000000000000000000200000000000400000000000300000000000600000000000617490621958300000000000200000000000400000000000500000000000600000000000400000000000200000000000600000000000000000000000700000000000600000000000219950612001206720000000600000000000300000000000400000000000800000000000200000000000200000000000823690622013100000000000400000000000600000000000000000000000100000000000800000000000213210611945400000000000200000000000400000000000500000000000600000000000000000000000400000000000600000000000600000000000200000000000600000000000600000000000600000000000100000000000)
 (.leaf 521540100000800000000000714270000000600000000000400000000000211970611960100000000000900000000000220000621962200000000000400000000000700000000000400000000000400000000000400000000000600000000000800000000000900000000000916540621960400000000000614580000000200000000000600000000000400000000000115710622009413290100000700000000000400000000000600000000000900000000000900000000000900000000000900000000000900000000000400000000000600000000000600000000000100000000000700000000000400000000000001430000000400000000000800000000000800000000000900000000000900000000000400000000000600000000000500000000000619020611974600000000000606350000000700000000000100000000000100000000000200000000000700000000000400000000000413520000000900000000000900000000000900000000000600000000000000000000000))
 (.node 1 (.leaf 600000000000200000000000700000000000600000000000400000000000603400000000400000000000400000000000400000000000002330100000324710622014200000000000900000000000900000000000500000000000700000000000600000000000400000000000220190621956417790611984400290000000800000000000100000000000800000000000600000000000008430100000600000000000400000000000700000000000200000000000600000000000600000000000120270000000306440621953616470611981100000000000300000000000700000000000900000000000700000000000320220000000200000000000400000000000200000000000800000000000400000000000600000000000800000000000800000000000700000000000800000000000900000000000400000000000615260621970800000000000800000000000420340621979500000000000800000000000400000000000600000000000100000000000600000000000300000000000)
 (.leaf 900000000000518830000000615080000000300000000000300000000000400000000000600000000000300000000000222950000000500000000000700000000000600000000000600000000000200000000000200000000000300000000000117870000000400000000000600000000000400000000000616600621968823900622008300000000000100000000000200000000000000000000000900000000000400000000000900000000000200610000000000000000000600000000000400000000000800000000000600000000000200000000000900000000000600000000000414400611911900000000000800000000000400000000000800000000000200000000000200000000000005220100000300000000000600000000000600000000000600000000000100000000000600000000000400000000000200000000000300000000000600000000000700000000000300000000000100000000000210530000000200000000000718150621979600000000000800000000000)))
 (.node 2 (.node 1 (.leaf 600000000000600000000000100000000000400000000000600000000000400000000000600000000000220530621996204500000000600000000000600000000000320550000000600000000000200000000000110690100000408870100000300000000000200000000000600000000000000000000000201800000000600000000000500000000000800000000000100000000000200000000000600000000000101810000000600000000000720610622004400000000000100000000000800000000000400000000000104680000000604120100000600000000000200000000000300000000000500000000000600000000000202690621965200000000000100000000000200000000000206100000000200000000000200000000000100000000000500000000000900000000000900000000000200000000000700000000000400000000000300000000000224150622006200000000000500000000000400000000000907690100000620640000000200000000000200000000000)
 (.leaf 800000000000800000000000400000000000600000000000900000000000800000000000200000000000220630000000500000000000500000000000500000000000200000000000800000000000700000000000400000000000700000000000400000000000400000000000700000000000500000000000200000000000100000000000300000000000200000000000620690621994200000000000100000000000900000000000800000000000900000000000800000000000200000000000800000000000100000000000200000000000200000000000200000000000600000000000200000000000322010611970915970611968400000000000400000000000200000000000800000000000000000000000600000000000800000000000400000000000200000000000211560621981800000000000400000000000300000000000400620000000600000000000500000000000200000000000200000000000100000000000100000000000800000000000900000000000500000000000))
 (.node 1 (.leaf 400000000000300000000000400000000000400000000000800000000000200000000000300000000000800000000000613760621962500000000000814600000000314870000000600000000000200000000000600000000000600000000000700000000000800000000000300000000000600000000000600000000000200000000000200000000000200000000000400000000000400000000000400000000000400000000000900000000000800000000000400000000000400000000000600000000000600000000000600000000000300000000000400000000000613620000000500000000000420750621995418700000000400000000000400000000000700000000000500000000000200000000000200000000000200000000000400000000000923520622012317900000000200000000000400000000000900000000000600000000000200000000000800000000000800000000000600000000000600000000000300000000000400000000000200000000000800000000000)
 (.leaf 600000000000800000000000600000000000800000000000800000000000600000000000800000000000800000000000500000000000400000000000400000000000920790611999600000000000800000000000223620622011800000000000500000000000600000000000400000000000800000000000200000000000800000000000900000000000500000000000115370621979200000000000800000000000200000000000420800611948800000000000518380000000800000000000700000000000800000000000900000000000800000000000822280611960800000000000816710611992800000000000400000000000205750611971900000000000300000000000400000000000600000000000900000000000700000000000200000000000600000000000600000000000200000000000500000000000400000000000100000000000300000000000624430622006200000000000116830611999200000000000000000000000200000000000200000000000600000000000))))
 (.node 4 (.node 2 (.node 1 (.leaf 800000000000800000000000100000000000600000000000200000000000200000000000400000000000300000000000100000000000100000000000300000000000900000000000900000000000200000000000100000000000816740611988200000000000623960000000600000000000800000000000700000000000600000000000600000000000400000000000200000000000400000000000200000000000400000000000200000000000900000000000600000000000600000000000600000000000500000000000200000000000218800000000600000000000900000000000800000000000200000000000200000000000600000000000900000000000400000000000200000000000200000000000600000000000200000000000400000000000600000000000200000000000300000000000800000000000800000000000900000000000900000000000500000000000418900000000600000000000200000000000200000000000800000000000500000000000200000000000)
 (.leaf 400000000000600000000000500000000000100000000000100000000000200000000000400000000000600000000000800000000000900000000000600000000000600000000000600000000000400000000000600000000000200000000000300000000000400000000000800000000000600000000000400000000000500000000000500000000000900000000000400000000000200000000000200000000000100000000000900000000000800000000000800000000000600000000000500000000000800000000000500000000000500000000000200000000000000000000000000000000000400000000000600000000000100000000000500000000000400000000000300000000000000000000000600000000000800000000000300000000000800000000000221030000000204600000000505420100000000000000000300000000000200000000000400000000000700000000000600000000000400000000000200000000000400000000000700000000000400000000000))
 (.node 1 (.leaf 200000000000400000000000600000000000800000000000300000000000600000000000900000000000900000000000800000000000500000000000600000000000500000000000200000000000000000000000100000000000600000000000400000000000600000000000900000000000500000000000600000000000200000000000901820000000400000000000000000000000400000000000400000000000700000000000603990000000600000000000900000000000600000000000400000000000600000000000400000000000100000000000400000000000800000000000800000000000900000000000600000000000112370000000100000000000600000000000800000000000000000000000200000000000400000000000600000000000900000000000400000000000100000000000723750622016300000000000500000000000400000000000700000000000600000000000400000000000000000000000700000000000823350622010200530000000724190622017)
 (.leaf 502570100000500000000000600000000000200000000000800110000000200000000000200000000000000000000000600000000000700000000000600000000000400000000000100000000000800000000000600000000000800110000000000000000000600000000000500000000000900000000000800000000000900000000000800000000000400000000000200480100000600000000000300180100000400000000000600000000000800000000000200000000000217160000000500000000000800000000000900000000000300000000000300000000000300000000000600000000000200000000000418210621984100000000000400000000000600000000000400000000000600000000000500000000000500000000000200000000000300000000000500000000000500000000000600000000000400000000000600000000000700000000000200000000000200000000000500000000000300000000000400000000000900000000000800000000000800000000000)))
 (.node 2 (.node 1 (.leaf 800000000000500000000000100000000000200000000000900000000000800000000000800000000000400000000000300000000000100000000000200000000000200000000000400000000000700000000000700000000000200000000000400000000000900000000000600000000000500000000000200000000000318060000000100000000000700000000000223330000000600000000000500000000000723300622015600000000000600000000000400000000000203640000000900000000000800000000000800000000000600000000000500000000000600000000000100000000000300000000000505250100000200000000000900000000000200000000000400000000000300000000000200000000000500000000000800000000000800000000000600000000000800000000000500000000000500000000000500000000000500000000000800000000000800000000000500000000000600000000000800000000000503150100000503150000000200000000000)
 (.leaf 200000000000400000000000200000000000100000000000100000000000600000000000600000000000200000000000200000000000300000000000600000000000300000000000500000000000500000000000900000000000600000000000621170000000300000000000300000000000400000000000100000000000814970621971100000000000600000000000400000000000400000000000400000000000500000000000500000000000600000000000800000000000800000000000400000000000600190000000000000000000300000000000600000000000600000000000600000000000600000000000800000000000300000000000600000000000200000000000400000000000800190000000600000000000500000000000600000000000400000000000400000000000500000000000500000000000400000000000208050100000600000000000300000000000300000000000600000000000200000000000200000000000400000000000600000000000200000000000))
 (.node 1 (.leaf 500000000000300000000000300000000000300000000000900000000000400000000000800000000000300000000000200000000000200000000000400000000000300000000000200000000000200000000000400000000000600000000000400000000000600000000000300000000000600000000000600000000000200000000000800570100000600000000000600000000000600000000000600000000000300000000000200000000000400000000000700000000000200000000000500000000000200000000000200000000000200000000000700000000000300000000000800000000000700000000000700000000000300000000000600000000000218260000000700000000000800000000000400720000000718660000000600000000000500000000000300000000000801950000000800000000000418660000000200000000000600000000000800000000000800000000000900000000000500000000000500000000000400000000000700000000000200000000000)
 (.leaf 300000000000200000000000200000000000200000000000200000000000300000000000306160100000600000000000400000000000500000000000500000000000600000000000400000000000800000000000900000000000600000000000803340000000800000000000800000000000800000000000200000000000300000000000400000000000800000000000700000000000400000000000100000000000200000000000912840100000500000000000500000000000600000000000800000000000600000000000800000000000900000000000800000000000900000000000800000000000900000000000700000000000800000000000100000000000500000000000800000000000800000000000600000000000600000000000700000000000600000000000400000000000200000000000800000000000806800000000800000000000200000000000900000000000800000000000700000000000800000000000800000000000400000000000800000000000200000000000)))))
 (.node 8 (.node 4 (.node 2 (.node 1 (.leaf 300000000000900000000000500000000000500000000000700000000000600000000000600000000000700000000000800000000000400000000000800000000000800000000000200000000000202130000000200000000000600000000000400000000000800000000000700050000000600000000000500000000000400000000000800000000000800000000000900000000000400000000000500000000000500000000000800000000000600000000000500000000000500000000000800000000000800000000000821260000000500000000000800000000000800000000000800000000000900000000000800000000000600000000000800000000000100000000000500000000000800000000000600000000000800000000000800000000000800000000000800000000000700000000000600000000000700000000000800000000000400000000000400000000000905280000000200000000000900000000000800000000000500000000000200070000000600000000000)
 (.leaf 800000000000600000000000300000000000500000000000600000000000200000000000700000000000600000000000700000000000600000000000300000000000600000000000800000000000700000000000217260000000600000000000600000000000600000000000800000000000600000000000622240000000900000000000700000000000800000000000600000000000500000000000600000000000500000000000600000000000600000000000400000000000200000000000800000000000500000000000700000000000700000000000900000000000700000000000317980611970400000000000700000000000800000000000918280000000600000000000300000000000100000000000200000000000600000000000500000000000800000000000200000000000200000000000200000000000200000000000300000000000600000000000800000000000600000000000800000000000600000000000600000000000300000000000600000000000600170000000))
 (.node 1 (.leaf 200000000000600000000000800000000000100000000000200000000000800000000000300000000000700000000000500000000000700000000000200000000000400000000000900000000000300000000000900000000000600000000000500000000000800000000000700000000000400000000000117280611997600000000000200000000000200000000000800000000000200000000000800000000000800000000000200000000000200000000000200000000000200000000000600000000000400000000000400000000000219090000000401750000000700000000000500000000000800000000000600000000000600000000000401450000000300000000000400000000000400000000000400000000000800000000000800000000000600000000000200000000000400000000000600000000000400000000000600000000000400000000000500000000000700000000000200000000000600000000000500000000000200000000000600000000000400000000000)
 (.leaf 500000000000400000000000600000000000400000000000600000000000700000000000100000000000800000000000600000000000600000000000400000000000800000000000000000000000600000000000200000000000300000000000401100000000400000000000600000000000800000000000400000000000400000000000600000000000900000000000800000000000600000000000100000000000700000000000800000000000600000000000600000000000417990000000700000000000300000000000600000000000200000000000700000000000600000000000800000000000600000000000500000000000600000000000200000000000400000000000300000000000200000000000800000000000200000000000600000000000704810621963400000000000400000000000600000000000400000000000100000000000600000000000800000000000702540621971500000000000200000000000800000000000500000000000400000000000600000000000)))
 (.node 2 (.node 1 (.leaf 100000000000300000000000600000000000800000000000600000000000400000000000800000000000200000000000200000000000810430611972800000000000300000000000600000000000400000000000100000000000100000000000600000000000800000000000400000000000600000000000200000000000100000000000600000000000200000000000200000000000900000000000300000000000300000000000700000000000200000000000400000000000800000000000600000000000300000000000200000000000400000000000900000000000900000000000100000000000700000000000900000000000400000000000400000000000300000000000421370000000400000000000200000000000600000000000400000000000100000000000200000000000100000000000200000000000400000000000400000000000600000000000421380622002804250000000814550000000200000000000600000000000200000000000604800611967200000000000)
 (.leaf 100000000000200000000000200000000000200000000000400000000000300000000000600000000000200000000000504650100000200000000000200000000000200000000000200000000000200000000000600000000000100000000000300000000000500000000000200000000000600000000000200000000000200000000000400000000000100000000000200000000000400000000000300000000000600000000000200000000000200000000000400000000000700000000000400000000000400000000000500000000000600000000000300000000000600000000000400000000000000000000000400000000000600670000000900000000000100000000000600000000000200000000000200000000000800000000000800000000000800000000000623150622009800000000000500000000000600000000000600000000000200000000000800000000000200000000000400000000000200000000000500000000000500000000000400000000000000000000000))
 (.node 1 (.leaf 500000000000400000000000700000000000800000000000600000000000400000000000500000000000600000000000300000000000900000000000900400000000300000000000300000000000600000000000400000000000400000000000500000000000200000000000400000000000600000000000500000000000600000000000200000000000414140611956500000000000400000000000600000000000600000000000900000000000600000000000500000000000810550000000400000000000700000000000900000000000700000000000600000000000500000000000500000000000300000000000500000000000700000000000000000000000000000000000500000000000618330000000300000000000800000000000400000000000500000000000600000000000200760000000500000000000500000000000401300100000600000000000600000000000600000000000600920100000600000000000600000000000200130000000200010000000700030000000)
 (.leaf 800020000000618660000000418660000000618660000000600000000000500000000000600000000000400000000000602520000000800000000000800000000000600000000000500000000000400000000000500000000000600000000000500000000000800000000000600000000000500000000000200000000000500000000000400000000000800000000000400000000000800000000000800000000000800000000000800000000000800000000000800000000000800000000000800000000000600000000000500000000000500000000000800000000000800000000000800000000000500000000000800000000000800000000000800000000000500000000000800000000000800000000000800000000000900000000000600000000000800000000000800000000000500000000000400000000000800000000000800000000000800000000000800000000000900000000000800000000000800000000000800000000000600000000000800000000000800000000000))))
 (.node 4 (.node 2 (.node 1 (.leaf 800000000000800000000000600000000000400000000000200000000000800000000000800000000000800000000000800000000000800000000000800000000000800000000000800000000000800000000000400000000000600000000000500000000000400000000000100000000000600000000000300000000000100000000000400000000000100000000000800000000000600000000000500000000000400000000000500000000000600000000000400000000000400000000000600000000000600000000000100000000000200000000000600000000000400000000000400000000000400000000000600000000000700000000000600000000000400000000000500000000000400000000000400000000000600000000000500000000000100000000000200000000000600000000000400000000000601570000000500000000000600000000000100000000000400000000000600000000000600000000000600000000000500000000000400000000000600000000000)
 (.leaf 400000000000406480000000500000000000500000000000500000000000600000000000800000000000400000000000800000000000505160100000600000000000501600100000622350000000400000000000100000000000300000000000500000000000600000000000600000000000500000000000512480100000500000000000500000000000400000000000400000000000100000000000100000000000100000000000100000000000100000000000100000000000500000000000400000000000600000000000600000000000700000000000400000000000600000000000900000000000800000000000500000000000700000000000900000000000500000000000605390000000100000000000100000000000100000000000100000000000200000000000600000000000600000000000600000000000600000000000200000000000400000000000600000000000600000000000600000000000500000000000900000000000300000000000100000000000600000000000))
 (.node 1 (.leaf 500000000000500000000000500000000000422530100000800000000000900000000000600000000000500000000000400000000000600000000000700000000000400000000000400000000000200000000000601140000000601930000000400000000000400000000000900000000000403260000000200000000000600000000000400000000000600000000000400000000000600000000000700000000000600000000000600000000000400000000000600000000000400000000000500000000000300000000000500000000000400000000000401610000000600000000000600000000000607310000000700000000000600000000000400000000000200000000000704090100000800000000000600000000000500000000000400000000000400000000000200000000000900000000000400000000000600000000000600000000000400000000000600000000000200000000000600000000000500000000000800000000000800000000000400000000000400000000000)
 (.leaf 200000000000619440000000600000000000200000000000600000000000600000000000200000000000400000000000600000000000400000000000600000000000600000000000400000000000600000000000600000000000600000000000600000000000400000000000400000000000400000000000400000000000400000000000800000000000100060000000600000000000400270000000400000000000300000000000608190000000601791421955600000000000400000000000100000000000800000000000400000000000600000000000400000000000900000000000700000000000600000000000400000000000100000000000501320000000400000000000400000000000600060000000400060000000900000000000300000000000500000000000300000000000500000000000500000000000600000000000200000000000600000000000400000000000800000000000600000000000400000000000200000000000700000000000600000000000500000000000)))
 (.node 2 (.node 1 (.leaf 600000000000602020100000400000000000700000000000400000000000300000000000600000000000300000000000600000000000900000000000700000000000600000000000400000000000400000000000200000000000400000000000600000000000800000000000401700000000201270100000200000000000600000000000319500621957300000000000600000000000500000000000400000000000600000000000400000000000600000000000900000000000600000000000400000000000600000000000400000000000600000000000400000000000611640000000400000000000800000000000722540000000500000000000218440000000603560100000600000000000800000000000400000000000600000000000200000000000600000000000600000000000400000000000600000000000800000000000600000000000600000000000408530000000601420100000400000000000600000000000413280100000400000000000700000000000600000000000)
 (.leaf 800000000000607030100000300000000000600000000000400000000000400000000000400000000000300000000000100000000000600000000000602940000000500000000000801070100000400000000000400000000000400000000000400000000000400000000000400000000000900000000000100000000000200000000000800000000000600000000000100000000000400000000000400000000000600810000000602920000000600000000000319541421958400000000000600000000000600000000000800000000000700000000000600000000000400000000000600000000000400000000000200080000000400000000000500000000000600000000000600000000000400000000000400000000000300000000000200000000000400000000000200000000000700000000000400000000000300000000000401590000000608780100000601830000000300000000000221790000000622340000000607380000000600000000000400000000000800000000000))
 (.node 1 (.leaf 800000000000800000000000400000000000600000000000400000000000800000000000700000000000103160000000412570000000307420100000600150000000400000000000400000000000800000000000400000000000100000000000400000000000600000000000400000000000800000000000400000000000400000000000604870000000322230100000622230000000400000000000500000000000400000000000303900000000400000000000800000000000600000000000400000000000400000000000600000000000800000000000401120000000806950000000602360000000800080000000213230000000601900000000200000000000604911421974300000000000600000000000100000000000200000000000703680100000600000000000200000000000700000000000400000000000600000000000400000000000400000000000600000000000900000000000800000000000400000000000400000000000500000000000422600000000200000000000)
 (.leaf 400000000000822030000000613060100000600000000000900000000000600000000000400000000000600000000000900000000000200000000000600000000000600000000000713480000000500000000000621820000000712100000000600000000000419061421941600000000000600000000000800000000000400000000000900000000000800000000000900000000000500000000000500000000000500000000000100000000000600000000000600000000000802480000000608820100000408670100000500000000000400000000000600000000000200000000000600000000000700000000000800000000000700000000000600000000000600000000000400000000000500000000000700000000000800000000000600000000000900560000000822610000000900000000000600000000000600000000000400000000000400000000000600000000000900000000000700000000000800000000000800000000000800000000000800000000000600000000000))))))
 (.node 16 (.node 8 (.node 4 (.node 2 (.node 1 (.leaf 400430000000600000000000400000000000800000000000400000000000600000000000600240000000800000000000400000000000100000000000800000000000500000000000300830000000411240000000400000000000400000000000600000000000700000000000400000000000400000000000400000000000800820000000600000000000800000000000501890000000800000000000613150000000600000000000600000000000800000000000100000000000400000000000600000000000800000000000100000000000400000000000900000000000921640000000401000100000411910000000400000000000800000000000400000000000200000000000400000000000700000000000800000000000601170100000621620000000421770000000500000000000400000000000600000000000600000000000400000000000600750000000700000000000600000000000304290100000907570000000604000100000901340100000600000000000600000000000)
 (.leaf 600000000000500000000000400000000000400000000000400000000000400000000000800000000000800000000000600000000000400700000000600000000000603760100000400000000000600000000000600000000000100470000000419640000000612740100000600000000000600000000000800000000000600000000000605490100000300000000000400000000000507330100000100000000000800000000000400000000000400000000000800000000000400000000000400000000000200000000000600000000000605330000000602630000000800000000000900000000000500000000000400000000000100000000000200000000000200000000000400000000000300000000000700000000000410120000000600000000000600000000000600000000000900000000000000000000000600000000000400000000000604570100000418930000000400000000000400000000000400000000000613850000000006550100000022120100000800000000000))
 (.node 1 (.leaf 400000000000600000000000418670000000600000000000600000000000400000000000500000000000103300621972600000000000410590100000900000000000400000000000200000000000900000000000400000000000400000000000400000000000600000000000200000000000204920000000800000000000900000000000700000000000400000000000600000000000900000000000500000000000500000000000400000000000400000000000400000000000700000000000400000000000407200100000601090000000900000000000400000000000600000000000200000000000200650000000419660000000400000000000400000000000600000000000000000000000400000000000400000000000800000000000100000000000400000000000600000000000600000000000902120000000622790721942401990000000803250100000200000000000200000000000600000000000700000000000700000000000100000000000400000000000700000000000)
 (.leaf 600000000000100000000000400000000000004230100000406750100000700000000000600000000000700000000000500000000000500000000000900000000000800000000000107810100000400000000000800000000000600000000000600000000000400000000000800000000000422550000000219680000000222880621969900000000000700000000000200000000000300000000000400000000000400000000000700000000000600000000000600000000000200000000000300000000000800000000000700000000000400000000000200000000000300000000000600000000000011620100000200000000000604740000000624050000000600000000000200000000000400000000000500000000000206510621973600000000000200010000000400000000000600000000000600000000000200000000000400000000000600000000000400000000000709660000000600000000000800000000000800000000000800000000000300000000000100000000000)))
 (.node 2 (.node 1 (.leaf 600000000000300000000000818710000000600000000000300000000000600000000000200000000000200000000000400000000000400000000000419190000000614510621934402600100000700000000000319070621979200000000000800000000000200000000000900000000000400000000000700000000000900000000000300000000000600010000000200000000000400000000000200000000000400580000000400000000000400000000000701760000000300000000000600000000000800000000000400000000000700000000000200000000000300000000000300000000000806530000000400140000000001840100000800000000000600000000000900000000000600000000000200000000000400000000000400000000000708880000000400030000000217770621930400000000000400000000000800140000000400140000000000500100000400000000000600000000000600960000000200000000000100030000000400000000000200000000000)
 (.leaf 400000000000200000000000600000000000601860100000500000000000100000000000400140000000400000000000004860100000800000000000800000000000400000000000600000000000600040000000600000000000500000000000400000000000500000000000500000000000400000000000600000000000600000000000800000000000922410000000400000000000900000000000300000000000400000000000600000000000400000000000402210000000400000000000600000000000800000000000700000000000600000000000600030000000300000000000500000000000400000000000800000000000500000000000400000000000600000000000200000000000600000000000200000000000600000000000400000000000000000000000000000000000900000000000100000000000824200622005600000000000804530000000400000000000600000000000600000000000200000000000500000000000700210100000600000000000000000000000))
 (.node 1 (.leaf 500000000000400000000000400000000000300000000000300000000000617490000000100000000000600000000000100000000000600000000000500000000000600000000000500000000000600000000000400000000000600000000000000000000000600000000000400000000000600000000000400000000000400000000000200000000000400000000000300000000000400000000000606720000000400000000000500000000000816350611981600000000000600000000000000000000000500000000000200000000000600000000000600000000000400000000000422050621956300000000000400000000000600000000000500000000000400000000000100000000000400000000000400000000000600000000000900000000000300000000000400000000000400000000000300000000000420020611956500000000000100000000000100000000000600000000000900000000000900000000000900000000000800000000000000000000000600000000000)
 (.leaf 500000000000500000000000400000000000400000000000800000000000900000000000900000000000412470000000600000000000600000000000606350621978400000000000700000000000413520100000600000000000620120621969500000000000700000000000300000000000423610000000400000000000303400100000400290000000400000000000800000000000400000000000400000000000600000000000300000000000800000000000220160000000800290000000800000000000800000000000800000000000813250000000300360000000600000000000200000000000200000000000600000000000900000000000500000000000800000000000400000000000700000000000700000000000800000000000600000000000000000000000000000000000100000000000413970000000610740621963400000000000400000000000100000000000400000000000400000000000615260000000608620000000420340000000100000000000200000000000))))
 (.node 4 (.node 2 (.node 1 (.leaf 300000000000400000000000619200621963800000000000200000000000600000000000800000000000200000000000200000000000600000000000600000000000500000000000600000000000200000000000612440000000000000000000300000000000400000000000600000000000616000000000622950000000300000000000600000000000400000000000900000000000400000000000200000000000400000000000600000000000600000000000600000000000100000000000214410000000300000000000000611411950300000000000600000000000300000000000414660611929600000000000200000000000500000000000800000000000900000000000400000000000208390611967400000000000220490621976100000000000600000000000620560000000300000000000400000000000100000000000600000000000618940000000300000000000200000000000200000000000208100621962600000000000500000000000413170611976200000000000)
 (.leaf 623630622013100000000000200000000000600000000000500000000000900000000000900000000000800000000000100000000000100000000000400000000000100000000000300000000000600000000000200000000000000000000000000000000000201800621966200000000000200000000000700000000000001810100000800000000000800000000000700000000000600000000000400000000000200000000000200000000000200000000000606100100000200000000000200000000000800000000000400000000000700000000000600000000000400000000000400000000000200000000000200000000000600000000000500000000000200000000000800000000000800000000000700000000000900000000000400000000000200000000000800000000000400000000000624450622000600000000000200000000000400000000000800000000000400000000000200000000000200000000000400000000000100000000000200000000000500000000000))
 (.node 1 (.leaf 900000000000600000000000400000000000200000000000400000000000200000000000200000000000200000000000601680000000300000000000800000000000600000000000400000000000200000000000800000000000611560000000800000000000400000000000400000000000400000000000200000000000900000000000000000000000200000000000600000000000900000000000600000000000600000000000200000000000400000000000924520000000314870611932400000000000400000000000000000000000300000000000500000000000600000000000300000000000600000000000200000000000613620621983600000000000214170611956418701421972400000000000400000000000600000000000600000000000300000000000600000000000800000000000800000000000900000000000400000000000600000000000600000000000600000000000200000000000200000000000815870621990617900621995600000000000)
 (.leaf 800000000000100000000000900000000000800000000000600000000000400000000000600000000000100000000000200000000000300000000000300000000000600000000000000000000000000000000000900000000000800000000000800000000000600000000000900000000000800000000000611080611964900000000000323970000000504040100000800000000000400000000000800000000000800000000000500000000000200000000000400000000000200000000000200000000000200000000000900000000000800000000000600000000000400000000000600000000000200000000000400000000000315220000000200000000000800000000000800000000000600000000000400000000000200000000000800000000000600000000000200000000000100000000000600000000000600000000000000000000000400000000000500000000000200000000000600000000000300000000000400000000000300000000000800000000000800000000000)))
 (.node 2 (.node 1 (.leaf 300000000000500000000000500000000000200000000000200000000000223770000000400000000000400000000000700000000000900000000000600000000000500000000000800000000000400000000000200000000000900000000000800000000000900000000000400000000000200000000000600000000000200000000000400000000000000000000000600000000000200000000000100000000000400000000000800000000000200000000000200000000000100000000000900000000000200000000000300000000000200000000000200000000000200000000000600000000000900000000000500000000000600000000000218810000000400000000000100000000000900000000000200000000000600000000000900000000000600000000000600000000000200000000000510950100000200000000000100000000000200000000000200000000000200000000000200000000000100000000000000000000000600000000000900000000000408500611931)
 (.leaf 720980621986000000000000400000000000600000000000800000000000400000000000300000000000400000000000800000000000600000000000621030611964200000000000821040621980400000000000600000000000400000000000800000000000300000000000200000000000900000000000616960612000300000000000500000000000600000000000700000000000600000000000800000000000600000000000900000000000800000000000200000000000100000000000400000000000800000000000400000000000903990611953800000000000217140611999600000000000600000000000000000000000600000000000400000000000300000000000100000000000900000000000512370100000800000000000400000000000400000000000600000000000700000000000700000000000400000000000124190000000400000000000600000000000400000000000200000000000700000000000500000000000300000000000900110000000900000000000))
 (.node 1 (.leaf 500000000000600530000000400530000000800000000000900000000000300000000000600000000000600000000000400000000000000000000000208790000000400000000000700000000000200000000000500000000000900000000000808110000000800000000000300000000000600000000000610860000000500000000000218210000000400000000000600000000000600000000000600000000000200000000000100000000000700000000000200000000000402270000000200000000000800000000000500000000000600000000000600000000000600000000000400000000000600000000000200860000000200000000000300000000000800000000000600000000000500000000000200000000000300000000000800000000000900000000000800000000000200000000000300000000000600000000000600000000000200000000000400000000000200000000000900000000000200000000000423330622016400000000000900000000000500000000000)
 (.leaf 503640100000800000000000800000000000800000000000900000000000500000000000200000000000200000000000200000000000200000000000200000000000600000000000400000000000600000000000800000000000900000000000500000000000400000000000400000000000600000000000800000000000900000000000400000000000800000000000200000000000700000000000800000000000800000000000100000000000300000000000600000000000400000000000400000000000600000000000100000000000400000000000500000000000500000000000600000000000300000000000600000000000400000000000200000000000600000000000900000000000400000000000400000000000400000000000100000000000200000000000300000000000609850100000400000000000400000000000400000000000300000000000300000000000800000000000200000000000200000000000700000000000200000000000600000000000200000000000)))))
 (.node 8 (.node 4 (.node 2 (.node 1 (.leaf 800000000000900000000000400000000000200000000000300000000000200000000000200000000000200000000000300000000000300000000000200000000000600000000000600000000000600000000000900000000000200000000000700000000000700000000000400000000000400000000000600000000000200000000000800000000000400000000000200000000000600000000000600000000000222730000000601950100000200720000000800000000000900000000000600000000000600000000000800000000000800000000000800000000000818660000000300000000000400000000000300000000000600000000000200000000000400000000000200050000000600000000000500000000000500000000000500000000000800000000000700000000000200000000000300000000000600000000000400000000000001220100000823080000000800000000000600000000000500000000000900000000000900000000000800000000000600000000000)
 (.leaf 900000000000800000000000800000000000400000000000100000000000200000000000800000000000900000000000800000000000800000000000900000000000900000000000400000000000400000000000600000000000800000000000800000000000800000000000900000000000600000000000200000000000400000000000800000000000800000000000900000000000400000000000100000000000600000000000600000000000400000000000600000000000800050000000900000000000700000000000900000000000500000000000800000000000622890000000800000000000500000000000800000000000400000000000600000000000800000000000800000000000800000000000800000000000600000000000600000000000600000000000900000000000900000000000700000000000800000000000600000000000800000000000600000000000800000000000700000000000800000000000800000000000700000000000500000000000400000000000))
 (.node 1 (.leaf 800000000000400000000000900000000000800000000000600000000000300070000000800000000000800000000000900000000000500000000000400000000000600000000000800000000000200000000000800000000000800000000000600000000000900000000000700000000000600000000000822240100000600000000000200000000000600000000000700000000000400000000000800000000000400000000000600000000000200000000000800000000000400000000000818280621998100000000000500000000000800000000000600000000000600000000000400000000000800000000000300000000000400000000000600000000000900000000000300000000000200000000000600000000000200000000000300000000000500000000000200170000000800000000000400000000000500000000000700000000000200000000000600000000000800000000000800000000000400000000000500000000000600000000000100000000000900000000000)
 (.leaf 800000000000800790000000300000000000900000000000600000000000217280000000800000000000200000000000100000000000800000000000500000000000600000000000700000000000400000000000219090000000400000000000000000000000800000000000600000000000801450000000400000000000700000000000200000000000800000000000800000000000600000000000300000000000200000000000500000000000600000000000400000000000600000000000400000000000400000000000800000000000300000000000000000000000300000000000600000000000200000000000400000000000600000000000401100621963400000000000200000000000900000000000600000000000400000000000800000000000700000000000900000000000600000000000300000000000800000000000400000000000400000000000600000000000200000000000200000000000400000000000600000000000800000000000819150621965600000000000)))
 (.node 2 (.node 1 (.leaf 600000000000400000000000600000000000400000000000400000000000800000000000600000000000400000000000100000000000600000000000600000000000400000000000400000000000800000000000100000000000600000000000600000000000600000000000300000000000600000000000400000000000800000000000600000000000300000000000800000000000600000000000600000000000400000000000300000000000200000000000800000000000300000000000500000000000500000000000400000000000700000000000200000000000100000000000500000000000609980611973200000000000400000000000615630000000400000000000600000000000300000000000100000000000500000000000100000000000200000000000721370621980000000000000600000000000300000000000400000000000404250611985900000000000600000000000100000000000500000000000424320622000400000000000600000000000200000000000)
 (.leaf 200000000000200000000000200000000000600000000000000000000000200000000000600000000000600000000000600000000000600000000000200000000000400000000000600000000000200000000000200000000000400000000000100000000000400000000000400000000000400000000000500000000000400000000000800000000000400000000000200000000000600000000000200000000000900000000000800000000000100000000000900000000000700000000000400000000000200000000000800000000000324280622015800000000000100000000000200000000000200000000000200000000000500000000000600000000000800000000000200000000000500000000000400000000000600000000000401030000000801690100000500000000000600000000000200000000000400000000000600000000000600000000000500000000000400000000000200000000000500000000000200000000000200000000000600000000000400000000000))
 (.node 1 (.leaf 600000000000600000000000810550100000400000000000600000000000500000000000500000000000600000000000800000000000600000000000818320000000600000000000500000000000600000000000603360100000600760100000500000000000200000000000600000000000600000000000600000000000500000000000600000000000700020000000800040000000918660000000818660000000600000000000600000000000500000000000400000000000602520000000800000000000600000000000400000000000600000000000600000000000800000000000800000000000800000000000800000000000800000000000800000000000800000000000800000000000700000000000400000000000800000000000800000000000800000000000600000000000600000000000800000000000800000000000800000000000800000000000800000000000800000000000900000000000800000000000700000000000600000000000600000000000800000000000)
 (.leaf 900000000000400000000000800000000000800000000000800000000000800000000000800000000000600000000000800000000000800000000000800000000000800000000000800000000000800000000000800000000000800000000000800000000000800000000000800000000000600000000000400000000000100000000000500000000000500000000000200000000000500000000000500000000000400000000000600000000000405030100000400000000000500000000000400000000000400000000000600000000000500000000000600000000000400000000000400000000000600000000000400000000000600000000000600000000000800000000000500000000000400000000000900000000000800000000000501570100000100000000000600000000000400000000000200000000000600000000000600000000000400000000000600000000000605050000000400000000000800000000000500000000000406480100000900000000000400000000000))))
 (.node 4 (.node 2 (.node 1 (.leaf 700000000000600000000000400000000000400000000000600000000000600000000000600000000000500000000000500000000000100000000000500000000000100000000000600000000000400000000000600000000000800000000000500000000000305390100000100000000000100000000000100000000000100000000000100000000000100000000000600000000000600000000000800000000000600000000000600000000000600000000000400000000000100000000000100000000000100000000000200000000000600000000000800000000000405840000000600000000000600000000000400000000000600000000000500000000000500000000000500000000000400000000000901140000000601930000000400000000000400000000000403260000000800000000000400000000000900000000000200000000000600000000000400000000000400000000000400000000000500000000000500000000000400000000000200000000000500000000000)
 (.leaf 400880000000600000000000600000000000600000000000607310100000800000000000700000000000600000000000800000000000401130000000500000000000400000000000600000000000400880000000600000000000900000000000400000000000600000000000200000000000200000000000700000000000400000000000400000000000619440000000600000000000100000000000600000000000100000000000700000000000600000000000600000000000400000000000800000000000600000000000800000000000600000000000400000000000800000000000200000000000700000000000400000000000400000000000600000000000400270000000500000000000619441421914600000000000500000000000600000000000400000000000300000000000800000000000300000000000900000000000600000000000400000000000400000000000700000000000400000000000600060000000400060000000500000000000400000000000600000000000))
 (.node 1 (.leaf 400000000000600000000000400000000000600000000000800000000000400000000000600000000000500000000000300000000000600000000000601440000000400000000000600000000000600000000000600000000000200000000000400000000000400000000000100000000000500000000000900000000000401700000000922540100000900000000000300000000000400000000000600000000000400000000000400000000000100000000000300000000000600000000000600000000000400000000000600000000000100000000000406520000000911640100000404430000000601880100000600000000000600000000000600000000000600000000000600000000000800000000000400000000000600000000000600000000000600000000000400000000000900000000000800000000000600000000000108530100000606490100000400000000000500000000000619510621970418730000000600000000000700000000000900000000000800000000000)
 (.leaf 400000000000700000000000400000000000600000000000400000000000400000000000400000000000400000000000700000000000400000000000800000000000600000000000400000000000400000000000400000000000600810100000600000000000800000000000800000000000600000000000600000000000400000000000400000000000400000000000500000000000300000000000419540000000700000000000900000000000400000000000800000000000800000000000400000000000400000000000800000000000400000000000200080000000400080000000800000000000601830100000322340100000307380100000800000000000800000000000400000000000600000000000500000000000600000000000600000000000412570100000600000000000221790000000100150000000800000000000400000000000400000000000200000000000600000000000600000000000400000000000400000000000400000000000906950100000400080000000)))
 (.node 2 (.node 1 (.leaf 604870100000600000000000604890100000208700000000500000000000409250000000800000000000400000000000800000000000501120100000700000000000802360100000801900000000607930000000603900000000304910000000400000000000600000000000600000000000300000000000413230100000400000000000600000000000100000000000600000000000400000000000600000000000400000000000600000000000400000000000400000000000500000000000400000000000222600000000400000000000806270100000413480000000623090000000200000000000500000000000800000000000700000000000300000000000600000000000600000000000500000000000400000000000402480100000521820100000200410000000600000000000800000000000400000000000600000000000400000000000100000000000500000000000800000000000700000000000600000000000600560100000622610100000500000000000400000000000)
 (.leaf 400000000000600000000000300000000000400000000000800000000000600000000000600000000000600000000000400000000000500000000000400000000000600000000000600000000000500000000000400000000000200000000000400000000000400000000000600000000000400000000000800430000000600000000000800000000000800000000000400820000000400000000000411240100000501890100000700000000000200000000000600000000000900000000000100000000000700000000000600000000000700000000000600830000000609530100000913150100000600000000000600000000000400000000000800000000000700000000000600000000000200000000000405210000000400000000000400000000000100000000000100000000000600000000000907570100000600000000000421770000000400000000000900000000000400000000000800750000000900000000000600340000000600000000000600000000000901340000000))
 (.node 1 (.leaf 600000000000700000000000900000000000700000000000400000000000100000000000405910000000800000000000300000000000400700000000400000000000600000000000603810000000123040100000819640000000300230000000900000000000600000000000600000000000800000000000900000000000900000000000418340000000500000000000800000000000400000000000400000000000400000000000118670000000600000000000600000000000800000000000602630100000600000000000100000000000400000000000410120100000600000000000600000000000900000000000600000000000400000000000622630000000500000000000700000000000600000000000600000000000200000000000700000000000700000000000913850621955600000000000600000000000400000000000600340000000418670000000200000000000600000000000400000000000200000000000406610000000604900000000400000000000800000000000)
 (.leaf 400000000000400000000000600000000000100000000000600000000000100000000000600000000000314440000000300000000000400000000000200000000000100000000000400000000000204920621958900000000000807200000000600000000000800000000000807660100000602120100000400600100000519660000000400000000000800000000000800000000000400000000000400000000000000000000000400000000000400000000000400000000000300000000000600000000000200000000000622790000000900000000000700000000000701990000000200651421968800000000000400000000000600000000000423580000000400850621929900000000000900000000000500000000000500000000000600000000000100000000000400000000000100000000000700000000000700000000000300000000000400000000000800000000000603700000000422550100000411990100000400350000000300000000000600000000000100000000000))))))))
 (.node 64 (.node 32 (.node 16 (.node 8 (.node 4 (.node 2 (.node 1 (.leaf 500000000000202680000000300000000000304740100000600000000000400000000000124050000000600000000000300000000000418710000000700000000000900000000000600000000000600000000000400000000000300000000000400000000000400000000000900000000000600000000000406510000000600000000000400000000000600000000000800000000000900000000000400000000000600870000000404210000000214510000000400000000000200000000000100000000000400000000000400000000000801550000000400000000000800000000000300000000000400000000000400000000000700000000000400000000000400000000000400000000000600000000000600000000000808880621953200000000000100000000000200000000000400140000000900000000000600000000000400000000000200000000000600000000000400000000000400000000000800140000000400000000000300000000000600000000000200000000000)
 (.leaf 400000000000700000000000200000000000307790000000400140000000400000000000600000000000400000000000900000000000600960000000200000000000100030000000600000000000600000000000200000000000400000000000400000000000400000000000200000000000900000000000800000000000800000000000800000000000700000000000600000000000002210100000400000000000600000000000600000000000900000000000600030000000400000000000400000000000600000000000900000000000600000000000500000000000600000000000700000000000400000000000404530000000100000000000400000000000600000000000800000000000600000000000600000000000200000000000400000000000600000000000600000000000100000000000200220000000200000000000300000000000100000000000300000000000400000000000200000000000114300621971600000000000619250621969400000000000111060000000))
 (.node 1 (.leaf 100000000000700000000000500000000000400000000000200000000000606720621963200000000000500000000000600000000000600000000000600000000000200000000000400000000000400000000000600000000000600000000000400000000000300000000000400000000000600000000000400000000000402820000000100000000000420010611961600000000000600000000000900000000000900000000000900000000000600000000000400000000000400000000000400000000000400000000000400000000000012470100000600000000000604700621931800000000000400000000000900000000000011490100000620130000000423610000000500000000000000290100000400000000000800000000000800000000000400000000000413250100000400000000000600000000000600000000000500000000000300000000000623430622013800000000000300000000000300000000000106670621940500000000000700000000000600000000000)
 (.leaf 360100000200000000000422920621954300000000000400000000000500000000000400000000000700000000000600000000000117520621975200000000000119390621942700000000000400000000000800000000000619200000000200000000000312440000000600000000000300000000000200000000000915200621967600000000000612440100000400000000000400000000000300000000000222950100000200000000000500000000000500000000000109650611983800000000000400000000000900000000000600000000000500000000000200000000000400000000000600000000000000000000000600000000000414660000000600000000000214410621964604220621942323420622013200000000000200000000000600000000000200000000000200000000000400000000000200000000000320530000000618940621993500000000000600000000000423390622013000000000000300000000000700000000000600000000000615130621969)))
 (.node 2 (.node 1 (.leaf 300000000000308100000000300000000000600000000000700000000000221970000000400000000000400000000000605100100000200000000000300000000000800000000000300000000000400000000000100000000000600000000000200000000000500000000000200000000000200000000000100000000000800000000000900000000000700000000000800000000000900000000000900000000000000000000000200000000000807750100000200000000000300000000000500000000000200000000000200000000000800000000000400000000000200000000000500000000000400000000000200000000000800000000000000000000000400000000000100000000000900000000000000000000000000000000000400000000000600000000000500000000000808730611968300000000000600000000000600000000000200000000000400000000000200000000000200000000000313910621958600000000000800000000000400000000000200000000000)
 (.leaf 600000000000500000000000200000000000300000000000400000000000200000000000400000000000800000000000200000000000100000000000623660000000800000000000600000000000500000000000700000000000100000000000900000000000600000000000800000000000600000000000600000000000300000000000100000000000600000000000900000000000100000000000800000000000400000000000200000000000600000000000300000000000300000000000600000000000817700000000900000000000900000000000600000000000400000000000900000000000600000000000400000000000400000000000900000000000800000000000800000000000800000000000500000000000200000000000900000000000100000000000600000000000200000000000616190000000623680000000518380100000200000000000400000000000600000000000800000000000900000000000800000000000800000000000400000000000600000000000))
 (.node 1 (.leaf 900000000000400000000000624140000000600000000000500000000000900000000000600000000000800000000000800000000000600000000000300000000000800000000000500000000000108070100000400000000000900000000000800000000000623830622016900000000000800000000000100000000000300000000000600000000000800000000000300000000000600000000000601850611957200000000000423770622010400000000000400000000000800000000000200000000000800000000000200000000000400000000000200000000000600000000000200000000000600000000000200000000000200000000000000000000000900000000000500000000000400000000000200000000000200000000000200000000000800000000000600000000000200000000000400000000000200000000000600000000000400000000000100000000000200000000000800000000000808500000000224500000000400000000000700000000000300000000000)
 (.leaf 200000000000200000000000700000000000800000000000821020621964100000000000400000000000800000000000600000000000200000000000100000000000400000000000900000000000300000000000800000000000618160611982200000000000522110100000400000000000600000000000600000000000900000000000800000000000600000000000600000000000300000000000700000000000400000000000600000000000509460100000100000000000900000000000400000000000417140000000800000000000700000000000617060611989400000000000400000000000600000000000400000000000400000000000800000000000200000000000800000000000818170000000200000000000300530000000200000000000900000000000800000000000800000000000400000000000900000000000808110611982800000000000318180611992208790611934100000000000200000000000510860100000217050611988100000000000600000000000))))
 (.node 4 (.node 2 (.node 1 (.leaf 500000000000418210000000900000000000200000000000400000000000200000000000700000000000600000000000200000000000600000000000900000000000900000000000800000000000600000000000200860621972300000000000700000000000200000000000600000000000621150000000600000000000201410000000200000000000800000000000800000000000100000000000200000000000600000000000800000000000800000000000500000000000500000000000200000000000800000000000900000000000400000000000200000000000400000000000800000000000300000000000300000000000800000000000600000000000800000000000400000000000400000000000600000000000100000000000800000000000800000000000500000000000200000000000600000000000400000000000400000000000600000000000400000000000800000000000600000000000600000000000600000000000200000000000600000000000300000000000)
 (.leaf 500000000000400000000000300000000000400000000000600000000000500000000000400000000000400000000000400000000000400800000000600000000000600000000000600000000000500000000000300000000000300000000000400000000000100000000000600000000000200000000000200000000000600000000000600000000000300000000000300000000000100000000000200000000000400000000000200000000000700000000000700000000000610500100000400000000000600000000000600000000000200000000000200000000000605180100000800000000000400000000000818660000000200000000000602660000000200720000000503590100000800000000000200000000000800000000000700000000000600000000000800000000000900000000000200000000000400000000000200050000000300000000000200000000000600000000000822150100000800000000000800000000000600000000000900000000000900000000000))
 (.node 1 (.leaf 900000000000600000000000700000000000800000000000900000000000818270621983700000000000500000000000600000000000800000000000800000000000600000000000800000000000400050000000100000000000600000000000800000000000603830000000500000000000500000000000800000000000800000000000600000000000400000000000800000000000800000000000800000000000800000000000800000000000322890000000800000000000800000000000800000000000800000000000600000000000700000000000800000000000800000000000800000000000822220000000800000000000913390100000900000000000800000000000600000000000400000000000100000000000800000000000700000000000600000000000800000000000400000000000700000000000900000000000200000000000100070000000600000000000500000000000600000000000800000000000200000000000800000000000600000000000700000000000)
 (.leaf 600000000000900000000000821280622002800000000000600000000000600000000000700000000000700000000000100000000000900000000000600000000000400000000000900000000000800000000000600000000000600000000000900000000000300000000000621300000000500000000000200000000000200000000000200000000000400000000000600170000000600000000000700000000000800790611971700000000000200000000000100000000000400000000000400000000000700000000000700000000000400000000000401750000000801450621962200000000000200000000000400000000000800000000000200000000000900000000000600000000000400000000000400000000000600000000000900000000000400000000000500000000000400000000000400000000000600000000000600000000000800000000000800000000000400000000000300000000000300000000000200000000000600000000000700000000000822160000000)))
 (.node 2 (.node 1 (.leaf 500000000000600000000000200000000000400000000000600000000000400000000000400000000000800000000000500000000000600000000000600000000000419140621969400000000000800000000000200000000000900000000000600000000000700000000000600000000000418390000000500000000000200000000000400000000000600000000000400000000000800000000000100000000000900000000000900000000000900000000000600000000000500000000000100000000000600000000000300000000000600000000000600000000000800000000000400000000000200000000000300000000000200000000000600000000000300000000000200000000000200000000000700000000000600000000000200000000000400000000000421360000000200000000000200000000000500000000000100000000000200000000000300000000000400000000000200000000000300000000000423190000000400000000000600000000000400000000000)
 (.leaf 200000000000400000000000200000000000600000000000300000000000200000000000200000000000200000000000200000000000600000000000200000000000700000000000100000000000606810000000600000000000200000000000200000000000600000000000600000000000300000000000700000000000600000000000400000000000400000000000600000000000600670000000400000000000700000000000200000000000100000000000500000000000100000000000600000000000600400100000400000000000600000000000200000000000401030621946500000000000400000000000500000000000100000000000400000000000300000000000300000000000600000000000800000000000400000000000421420000000600000000000100000000000900000000000300000000000400000000000621440621977918320621993000000000000600000000000601620100000600000000000600000000000500000000000600000000000600000000000))
 (.node 1 (.leaf 300010000000600010000000600040000000800040000000600000000000300000000000602520000000500000000000600000000000400000000000800000000000800000000000800000000000800000000000800000000000800000000000600000000000700000000000800000000000800000000000800000000000400000000000800000000000800000000000800000000000600000000000600000000000800000000000800000000000800000000000900000000000800000000000600000000000800000000000800000000000800000000000900000000000400000000000800000000000700000000000800000000000800000000000600000000000800000000000800000000000800000000000800000000000800000000000800000000000800000000000800000000000800000000000800000000000400000000000400000000000100000000000900000000000400000000000400000000000400000000000400000000000600000000000600000000000500000000000)
 (.leaf 400000000000600000000000400000000000400000000000600000000000600000000000609050000000500000000000500000000000600000000000500000000000600000000000600000000000400000000000400000000000600000000000505050100000400000000000400000000000100000000000400000000000400000000000500000000000500000000000400000000000700000000000600000000000600000000000600000000000500000000000600000000000800000000000500000000000100000000000800000000000900000000000600000000000800000000000600000000000400000000000500000000000100000000000100000000000100000000000100000000000100000000000600000000000601140100000600000000000800000000000600000000000700000000000600000000000500000000000100000000000200000000000601930621965400000000000100000000000403260100000400000000000600000000000400000000000504180100000)))))
 (.node 8 (.node 4 (.node 2 (.node 1 (.leaf 400000000000400000000000800000000000500000000000400000000000400880000000600000000000300000000000400000000000612550100000400000000000600000000000701130000000400000000000200000000000600000000000800880000000700000000000600000000000400000000000600000000000400000000000600000000000400000000000400000000000400000000000400000000000319440000000300000000000600000000000600000000000600000000000600000000000400000000000900000000000800000000000600000000000800000000000100000000000700000000000600000000000400270000000218820000000400000000000300000000000400000000000200000000000400000000000600060000000400060000000200000000000400000000000600000000000400000000000200000000000600000000000900000000000400000000000600000000000900270000000500000000000600000000000301440000000400000000000)
 (.leaf 600000000000600000000000600000000000400000000000200000000000600060000000408990100000600000000000400000000000900000000000400000000000600000000000600000000000300000000000400000000000400000000000306520000000404430000000606180100000300000000000300000000000300000000000600000000000600000000000800000000000600000000000200000000000600000000000400000000000200000000000400000000000600000000000400000000000600000000000601650000000400000000000200000000000818730000000500000000000200000000000600000000000113530100000700000000000800000000000400000000000400000000000400000000000800000000000600000000000100000000000800000000000800000000000300000000000600000000000900000000000600000000000900000000000400000000000100000000000400000000000400000000000800000000000210480100000700000000000))
 (.node 1 (.leaf 400000000000700000000000400000000000400080000000500000000000600000000000800000000000400000000000600000000000300000000000600000000000401590000000600000000000600150000000400000000000400000000000800000000000600000000000700000000000400000000000601310100000401900000000600000000000600000000000400000000000621790100000400000000000400000000000600000000000408700100000203901421858400000000000600000000000900000000000400000000000910450100000600000000000600000000000300000000000600000000000100000000000600000000000400000000000600000000000700000000000400000000000400000000000600000000000400000000000413480100000623090000000600000000000600000000000300000000000422600100000500000000000400000000000407770000000218680000000600000000000700000000000600000000000600000000000900000000000)
 (.leaf 600000000000609180100000400000000000100000000000300410000000600410000000400000000000600000000000200000000000400000000000900980000000600000000000700430000000100000000000700000000000400000000000600000000000800000000000800000000000800000000000400000000000600000000000800000000000800000000000400000000000400820000000400000000000700000000000600000000000600000000000600000000000400000000000600000000000600830000000600000000000600000000000400000000000600000000000400000000000700000000000600000000000621640000000400000000000600000000000400000000000400000000000700000000000118670000000400000000000906880100000600000000000421770100000500000000000100000000000400000000000400000000000600340000000900000000000300000000000800000000000500000000000900000000000919640621981100000000000)))
 (.node 2 (.node 1 (.leaf 600000000000405910100000700000000000400700000000600000000000300000000000200000000000600000000000603810100000700000000000600000000000600000000000600000000000418340621981600230621971400000000000400000000000400000000000600000000000900000000000600000000000912690100000600000000000400000000000700000000000400000000000900000000000800000000000400000000000600000000000900000000000418670000000600000000000400100000000922630100000400000000000600000000000200000000000700000000000600000000000100000000000100000000000406610100000604900000000424350000000800000000000700000000000300000000000600000000000700000000000300000000000300000000000603630000000200000000000400000000000900000000000100000000000400000000000400000000000600000000000314440621983600000000000500000000000400000000000)
 (.leaf 200000000000600000000000700000000000400000000000400000000000100000000000400000000000700000000000400000000000100000000000217380621976600000000000611670000000600000000000800000000000800000000000400000000000600000000000423580000000600000000000400850000000900000000000322880621975400000000000400000000000810720100000100000000000400000000000600000000000601670000000400000000000300000000000600000000000900000000000400000000000600000000000418711421914401230000000617810000000600000000000006190100000400000000000010300000000400000000000600000000000600000000000224050622006600000000000700000000000600000000000800000000000100000000000300000000000600000000000700000000000404211421911400000000000800000000000000000000000400000000000600000000000200000000000406530000000500000000000))
 (.node 1 (.leaf 200000000000400000000000800000000000800000000000600000000000800000000000200000000000400140000000600000000000600000000000200000000000600000000000600000000000400000000000400000000000100000000000700000000000900000000000800000000000200000000000400000000000800000000000600000000000400000000000615300000000600000000000600000000000600000000000400000000000607790611973400000000000100000000000200000000000600000000000200000000000600000000000700000000000400000000000900000000000900000000000400000000000400000000000000000000000600000000000600000000000800040000000300000000000400000000000704530621941600000000000400000000000600000000000407640611977317480621957600000000000700000000000200000000000600000000000000000000000413900000000400000000000700000000000400220000000900000000000)
 (.leaf 319250000000615250621966200000000000300000000000400000000000600000000000119960621986100000000000111060100000200000000000900000000000100000000000800000000000600000000000200000000000800000000000400000000000600000000000214160000000100000000000414530611964715120611968600000000000600000000000800000000000202820000000120010000000202380000000308960000000600000000000100000000000619000000000400000000000400000000000400000000000700000000000116530622020800000000000614700000000900000000000400000000000900000000000620130621968400000000000400000000000600000000000800000000000000000000000402050000000600000000000500000000000623430000000700000000000318140611983900000000000410520000000200000000000220250621949420330000000100000000000200000000000814460621909400000000000800000000000))))
 (.node 4 (.node 2 (.node 1 (.leaf 700000000000500000000000200000000000900000000000200000000000106770621940500000000000200000000000200000000000200000000000600000000000200000000000700000000000600000000000600000000000600000000000400000000000600000000000600000000000200000000000400000000000600000000000200000000000600000000000400000000000600000000000606140621942200000000000207590000000620570000000400000000000100000000000400000000000700000000000600000000000300000000000920560621970223390000000800000000000400000000000300000000000224620000000812330100000617630000000600000000000100000000000400000000000023070100000200000000000500000000000600000000000800000000000700000000000600000000000500000000000600000000000200000000000304030621969800000000000600000000000400000000000600000000000200000000000300000000000)
 (.leaf 100000000000400000000000800000000000500000000000600000000000400000000000200000000000600000000000200000000000200000000000600000000000200000000000100000000000600000000000208440621964800000000000600000000000900000000000400000000000500000000000600000000000500000000000200000000000300000000000300000000000500000000000600000000000700000000000200000000000820730000000400000000000900000000000400000000000800000000000000000000000823660622009800000000000800000000000200000000000600000000000600000000000500000000000300000000000800000000000608330611946000000000000400000000000600000000000000000000000600000000000200000000000300000000000400000000000500000000000521750100000600000000000400000000000800000000000800000000000600000000000400000000000600000000000600000000000600000000000))
 (.node 1 (.leaf 200000000000100000000000400000000000600000000000616190000000100000000000600000000000800000000000900000000000500000000000100000000000223680622005400000000000200000000000800000000000600000000000300000000000800000000000800000000000600000000000400000000000324140622011300000000000500000000000600000000000600000000000800000000000400000000000800000000000200000000000324540000000500000000000800000000000000000000000201850000000100000000000000000000000000000000000600000000000400000000000600000000000718891411962400000000000500000000000600000000000600000000000200000000000200000000000200000000000200000000000300000000000400000000000200000000000200000000000200000000000800000000000800000000000400000000000000000000000600000000000600000000000700000000000200000000000200000000000)
 (.leaf 900000000000213630621901300000000000300000000000400000000000600000000000200000000000100000000000400000000000300000000000000000000000900000000000600000000000600000000000100000000000807230000000300000000000600000000000600000000000600000000000800000000000600000000000800000000000700000000000200000000000100000000000600000000000400000000000600000000000417040611983600000000000800000000000400000000000418170611988600000000000400000000000900000000000800000000000400000000000200530100000400000000000200000000000200000000000300000000000200000000000200000000000218220611982300000000000714000000000400000000000400000000000400000000000800000000000200000000000600000000000600000000000500000000000600000000000200000000000800000000000600000000000800000000000800000000000900000000000)))
 (.node 2 (.node 1 (.leaf 800000000000600000000000700000000000821150000000600000000000600000000000200000000000200000000000601410621980200000000000400000000000300000000000800000000000900000000000100000000000600000000000823290000000800000000000200000000000200000000000600000000000800000000000900000000000500000000000100000000000200000000000200000000000400000000000700000000000600000000000500000000000200000000000600000000000600000000000200000000000500000000000200000000000400000000000400000000000200000000000200000000000600000000000400000000000400000000000700000000000300000000000800000000000600000000000200000000000600000000000600000000000200000000000400000000000500000000000400000000000609540100000200000000000200000000000200000000000300000000000600000000000500000000000400000000000600000000000)
 (.leaf 500000000000608210100000602660000000200000000000400000000000800000000000400000000000800000000000608480000000600000000000100000000000600000000000700000000000600000000000800000000000400000000000200050000000600000000000400000000000800000000000600000000000400000000000500000000000400000000000600000000000800000000000700000000000800000000000600000000000500000000000700000000000800000000000700000000000800050000000700000000000900000000000803830000000800000000000800000000000800000000000800000000000617240621980500000000000102130100000800000000000900000000000800000000000700000000000800000000000700000000000800000000000022890100000200000000000800000000000922220100000800000000000800000000000900000000000700000000000600000000000800000000000400000000000100000000000800000000000))
 (.node 1 (.leaf 800000000000800000000000400000000000700000000000200000000000300070000000600000000000800000000000824330622010700000000000617260000000200000000000800000000000400000000000300000000000800000000000600000000000400000000000500000000000400000000000100000000000800000000000900000000000500000000000200000000000500000000000700000000000700000000000700000000000200170000000600000000000200000000000200000000000600000000000400000000000100000000000100000000000800000000000500000000000900000000000500000000000900000000000100000000000201750621980400000000000600000000000600000000000300000000000900000000000200000000000400000000000000000000000500000000000400000000000600000000000900000000000422160000000900000000000700000000000600000000000700000000000618300000000600000000000600000000000)
 (.leaf 400000000000600000000000100000000000600000000000600000000000719130000000600000000000400000000000400000000000600000000000418390621976400000000000400000000000300000000000300000000000600000000000400000000000800000000000200000000000800000000000400000000000200000000000300000000000600000000000600000000000000000000000200000000000600000000000400000000000300000000000600000000000300000000000200000000000600000000000421360621980200000000000500000000000200000000000200000000000200000000000400000000000100000000000200000000000300000000000423190622010400000000000300000000000600000000000400000000000200000000000100000000000200000000000200000000000600000000000200000000000300000000000100000000000200000000000006810100000400000000000200000000000200000000000000000000000200000000000))))))
 (.node 16 (.node 8 (.node 4 (.node 2 (.node 1 (.leaf 200000000000800000000000300000000000200000000000800000000000100000000000600000000000300000000000400000000000800000000000200000000000600000000000700000000000400000000000600000000000118020621960400000000000400000000000200000000000500000000000800000000000600000000000200000000000400000000000300000000000600000000000700000000000518410100000600000000000600000000000600000000000800000000000600000000000300000000000600000000000500000000000400080000000600010000000600000000000602520000000500000000000500000000000500000000000500000000000500000000000800000000000600000000000500000000000400000000000800000000000800000000000800000000000600000000000800000000000800000000000800000000000400000000000800000000000800000000000800000000000800000000000900000000000500000000000800000000000)
 (.leaf 800000000000800000000000800000000000900000000000600000000000800000000000900000000000400000000000800000000000800000000000800000000000800000000000800000000000800000000000800000000000800000000000800000000000600000000000700000000000900000000000600000000000405970000000600000000000400000000000400380000000100000000000400000000000400000000000400000000000600000000000600000000000400000000000600000000000400000000000500000000000600000000000609050100000600000000000600000000000600000000000800000000000400000000000600000000000400000000000210490000000400000000000400000000000400000000000100000000000400000000000400000000000900000000000600000000000500000000000600000000000600000000000400000000000600000000000600000000000900000000000606990100000500000000000500000000000400000000000))
 (.node 1 (.leaf 600000000000614260000000900000000000600000000000600000000000400000000000400000000000600000000000500000000000700000000000400000000000600000000000400000000000400000000000400000000000501130100000400000000000100000000000200000000000100000000000400880000000400000000000300000000000400000000000605230100000400000000000400000000000300000000000600000000000400000000000900000000000600000000000400000000000600000000000400000000000400000000000400000000000400000000000100000000000600000000000800000000000600000000000900000000000400000000000600000000000500000000000300000000000200000000000400000000000600000000000400000000000400000000000400000000000600060000000400060000000800270000000418821421963700000000000300000000000400000000000600000000000400000000000600000000000400000000000)
 (.leaf 600000000000600000000000300000000000200000000000200000000000600000000000400000000000800060000000401700000000600000000000500000000000601440100000800000000000600000000000300000000000100000000000200000000000100000000000704430100000607370100000600000000000418731421950600000000000900000000000600000000000400000000000600000000000800000000000400000000000506520000000600000000000601650000000300000000000400000000000600000000000200000000000700000000000700000000000600000000000800000000000400000000000400000000000419510000000600000000000400000000000400000000000100000000000600000000000600000000000600000000000600080000000900000000000300000000000700000000000400000000000600000000000100000000000100000000000800000000000400000000000700000000000200000000000700000000000400080000000)))
 (.node 2 (.node 1 (.leaf 600000000000219590000000600000000000400000000000300000000000500000000000600000000000401590000000200000000000300150000000400000000000100000000000300000000000400000000000800000000000809200000000901900100000304890000000500000000000500000000000300000000000400000000000800000000000600660000000600000000000111300100000400000000000900000000000400000000000203900000000606220000000600000000000800000000000600000000000400000000000300000000000400000000000200000000000600000000000400000000000500000000000600000000000600000000000600000000000400000000000400000000000600000000000400000000000400000000000600000000000407770100000800000000000600000000000800000000000500000000000800980100000305740100000600000000000500000000000418680000000600430000000300410000000400000000000400000000000)
 (.leaf 600000000000800000000000100000000000600000000000500000000000401490000000600410000000400840000000600000000000400000000000400000000000101500000000200000000000700000000000400000000000400000000000800820000000400000000000600000000000900000000000800000000000600000000000600830000000600000000000100000000000700000000000800000000000600000000000921640000000600000000000400000000000900000000000400000000000400000000000800000000000600000000000200000000000600000000000600000000000405210100000600000000000400000000000400000000000400000000000600340000000218670000000600000000000407100100000900000000000200700000000500000000000900000000000600000000000200000000000800000000000600000000000200700000000600000000000900000000000600000000000418340000000318910621971900000000000800000000000))
 (.node 1 (.leaf 800000000000400000000000400000000000400000000000600000000000600000000000300000000000804790100000600000000000800000000000002000100000000000000000800000000000418670000000605440000000400000000000400000000000400000000000400000000000604900100000424350000000600000000000100000000000600000000000400000000000400000000000903630100000400000000000400000000000200000000000400000000000600000000000600000000000600000000000600000000000405170000000700000000000800000000000400000000000200000000000400000000000700000000000400000000000202760000000600000000000611670100000900000000000800000000000200000000000700000000000400000000000400000000000123580000000400000000000200000000000400000000000408090100000200000000000100000000000210000000000700000000000300000000000900000000000801670000000)
 (.leaf 400000000000410300100000600000000000400000000000700000000000600000000000418710000000301230000000600000000000317810621981600000000000400000000000200000000000200000000000600000000000415620000000800000000000800000000000424050000000322650000000400000000000400000000000300000000000400000000000400000000000400000000000600000000000800000000000406530100000100000000000900000000000200000000000400140000000400000000000600000000000800000000000900000000000317760621968600000000000400000000000200000000000400000000000300000000000404970000000600000000000800000000000815300611965200000000000603790100000600000000000100000000000600000000000400000000000400000000000600000000000600000000000600000000000000000000000300000000000700000000000300000000000400000000000300000000000800000000000))))
 (.node 4 (.node 2 (.node 1 (.leaf 400000000000815150611931100000000000800000000000400000000000600000000000400000000000600000000000617480000000601400000000500000000000300000000000300000000000213900000000400000000000000220100000615250000000400000000000600000000000200000000000600000000000600000000000500000000000900000000000623120000000404940000000400000000000618980621952200000000000300000000000400000000000400000000000600000000000314090621954000000000000100000000000414530000000600000000000200000000000200000000000400000000000900000000000002820100000619000621964418110000000700000000000402380000000608960611970900000000000614700621943115280611980400000000000900000000000600000000000200000000000100000000000900000000000300000000000200000000000900000000000700000000000410520100000600000000000700000000000)
 (.leaf 200000000000600000000000200000000000600000000000700000000000200000000000400000000000200000000000200000000000118790000000600000000000300000000000600000000000204450000000000000000000400000000000600000000000600000000000600000000000600000000000600000000000400000000000200000000000600000000000500000000000400000000000020560000000214050000000000000000000200000000000100000000000600000000000600000000000400000000000200000000000400000000000317670621989200000000000800000000000400000000000200000000000400000000000300000000000324620622014900000000000800000000000500000000000400000000000600000000000112150621952600000000000200000000000400000000000300000000000200000000000200000000000500000000000100000000000300000000000100000000000000000000000600000000000000000000000800000000000))
 (.node 1 (.leaf 800000000000600000000000800000000000400000000000210640000000000000000000820730000000600000000000200000000000200000000000600000000000624600000000900000000000500000000000100000000000800000000000300000000000900000000000800000000000200000000000400000000000900000000000000000000000800000000000800000000000200000000000000000000000500000000000200000000000500000000000200000000000900000000000600000000000100000000000200000000000900000000000800000000000200000000000600000000000616190622000600000000000600000000000000000000000400000000000400000000000200000000000600000000000200000000000216720611976800000000000000000000000719370000000800000000000300000000000620870000000522060711978400000000000800000000000500000000000324540622012300000000000407900000000201850000000200000000000)
 (.leaf 700000000000200000000000100000000000300000000000900000000000900000000000200000000000400000000000200000000000200000000000600000000000700000000000800000000000000000000000600000000000200000000000600000000000900000000000800000000000200000000000600000000000200000000000500000000000900000000000600000000000200000000000900000000000300000000000300000000000800000000000600000000000600000000000900000000000606210000000400000000000500000000000200000000000217040000000800000000000800000000000900000000000600000000000600000000000800000000000100000000000500000000000300000000000200000000000400000000000900000000000600000000000600000000000100000000000200000000000400000000000100000000000600000000000800000000000600000000000300000000000600000000000200200000000800000000000800000000000)))
 (.node 2 (.node 1 (.leaf 600000000000200000000000800000000000900000000000821150000000600000000000600000000000200860000000800000000000600000000000201410000000509610100000200000000000600000000000823290000000500000000000200000000000200000000000800000000000800000000000200000000000200000000000400000000000400000000000300000000000400000000000400000000000200000000000600000000000800000000000200000000000600000000000500000000000400000000000300000000000200000000000400000000000100000000000600250000000300000000000200000000000600000000000300000000000200000000000400000000000400000000000400000000000300000000000600000000000322170000000200000000000618660000000600000000000300000000000300000000000600000000000800000000000500000000000800000000000200000000000400000000000600000000000600000000000800000000000)
 (.leaf 300000000000600000000000500000000000500000000000607870100000800000000000200050000000800000000000800000000000800000000000800000000000400000000000500000000000600000000000800000000000900000000000800000000000800000000000800050000000800000000000600000000000603830000000800000000000900000000000800000000000900000000000300000000000800000000000400000000000800000000000800000000000800000000000600000000000800000000000805060100000600000000000800000000000800000000000400000000000800000000000800000000000800000000000800000000000600000000000900000000000400000000000800000000000600000000000723230622006800000000000700000000000517260611986100000000000200070000000900000000000400000000000600000000000600000000000900000000000700000000000800000000000800000000000100000000000500000000000))
 (.node 1 (.leaf 400000000000500000000000921300622003200000000000200000000000200170100000400000000000300000000000500000000000800000000000800000000000200000000000100000000000700000000000200000000000419100621966000000000000800000000000900000000000800000000000500000000000200000000000400000000000400000000000800000000000700000000000422160621956500000000000600000000000818300611987600000000000600000000000419130621975500000000000300000000000600000000000600000000000600000000000800000000000700000000000600000000000406970621985800000000000700000000000400000000000600000000000200000000000600000000000200000000000700000000000600000000000800000000000100000000000300000000000200000000000200000000000100000000000300000000000200000000000300000000000421350611999600000000000200000000000400000000000)
 (.leaf 200000000000200000000000100000000000200000000000400000000000400000000000200000000000200000000000200000000000200000000000200000000000200000000000200000000000200000000000200000000000400000000000400000000000600000000000300000000000400000000000600000000000600000000000400000000000200000000000600000000000200000000000403450611979200000000000400000000000600000000000200000000000417780621982100000000000200000000000600000000000800000000000600000000000600000000000700000000000200000000000901630000000600000000000600000000000600000000000600000000000600000000000900010000000800040000000600000000000600000000000602520000000600000000000800000000000800000000000800000000000800000000000600000000000800000000000800000000000800000000000800000000000500000000000400000000000800000000000)))))
 (.node 8 (.node 4 (.node 2 (.node 1 (.leaf 800000000000800000000000800000000000800000000000900000000000600000000000800000000000800000000000400000000000800000000000800000000000800000000000800000000000800000000000800000000000800000000000600000000000800000000000600000000000405970000000600000000000100000000000400380000000400000000000400000000000100000000000400000000000600000000000600000000000400000000000600000000000400000000000600000000000400000000000600000000000600000000000900000000000600000000000400000000000400000000000400000000000500000000000900000000000610490100000700000000000400000000000600000000000100000000000600000000000900000000000400000000000900000000000600000000000600000000000900000000000400000000000200000000000914260621964405840100000600000000000900000000000400000000000400000000000900000000000)
 (.leaf 600000000000400000000000400000000000400000000000700000000000400880621970400000000000600000000000600000000000400000000000400000000000300000000000200000000000500000000000300000000000900000000000800000000000600000000000800000000000600000000000400000000000600000000000400000000000400000000000503100000000200000000000600000000000600000000000600000000000400000000000600000000000400270000000100000000000800000000000400000000000400000000000400000000000600060000000400060000000600000000000300000000000400000000000400000000000600000000000600000000000200000000000600000000000300000000000400000000000600000000000300000000000400000000000601460000000801700000000500000000000600000000000800000000000600000000000600000000000600000000000800000000000600000000000600000000000400000000000))
 (.node 1 (.leaf 600000000000400000000000400000000000200000000000600000000000600000000000400000000000400000000000600000000000600000000000301650100000400000000000300000000000600000000000400000000000400000000000900000000000300000000000400000000000300000000000400000000000700000000000300000000000600000000000600000000000600000000000109270100000600000000000200000000000400000000000400000000000600000000000200000000000500000000000600640000000100000000000400000000000200000000000401590100000909200100000800000000000406010100000400000000000400000000000619580000000200000000000600000000000400150000000400000000000600000000000600660100000600000000000600000000000200000000000700000000000400000000000400000000000606220000000600000000000600000000000400000000000200000000000600000000000400000000000)
 (.leaf 600000000000100000000000600000000000200000000000600000000000400000000000400000000000800000000000600000000000600000000000400000000000100000000000800000000000800000000000422030000000600000000000600000000000608580000000118680000000900430100000400000000000400000000000900000000000100240000000600000000000801491421926400840000000300000000000400000000000400000000000800000000000800000000000200000000000400000000000800000000000606290000000700000000000900000000000600830000000600000000000600000000000600000000000600000000000900000000000400000000000211910000000400000000000400000000000600000000000800000000000400000000000900000000000800000000000400000000000100000000000900000000000600000000000700000000000400740000000600000000000600000000000800000000000800000000000600000000000)))
 (.node 2 (.node 1 (.leaf 100700000000200000000000810830000000800000000000422640000000500000000000200000000000400000000000200000000000400000000000800000000000900000000000500000000000600000000000600000000000605440100000400000000000400000000000400000000000600000000000400100000000600000000000424350622005600000000000200000000000400000000000400000000000400000000000400000000000400000000000400000000000800000000000600000000000300000000000900000000000500000000000405170722010400000000000300000000000700000000000400000000000700000000000600000000000912310100000200000000000100000000000400000000000102760000000418631421958803700100000500000000000800000000000600000000000001670100000423580000000600000000000400000000000700000000000819410000000510000621965700000000000100000000000600000000000722740000000)
 (.leaf 300000000000800000000000400390000000600000000000600000000000600000000000400000000000600000000000415620621955601231421925600000000000400000000000321720000000224050000000600000000000600010000000400000000000111380100000400000000000400000000000700000000000600000000000802150100000224670000000200000000000800000000000400000000000400140000000708750100000200000000000400000000000400000000000400000000000900000000000617760000000200000000000800000000000600000000000300000000000600000000000600000000000400000000000400000000000607680100000600960000000800000000000200000000000404520611975400000000000400000000000615150000000200000000000600000000000400000000000715190611974600000000000400000000000600000000000300000000000201400000000401780000000500000000000411530000000200000000000))
 (.node 1 (.leaf 500000000000800000000000600000000000900000000000300000000000623120611983600000000000104940000000200000000000300000000000400000000000400000000000800000000000200000000000200000000000406020000000900000000000200000000000400000000000420050621959400000000000900000000000200000000000617540621948200000000000400000000000402380000000900000000000600000000000300000000000400000000000800000000000600000000000100000000000900000000000200000000000400000000000700000000000300000000000704830621966600000000000804730000000800000000000500000000000614030621965200000000000400000000000200000000000200000000000600000000000718790621939700000000000600000000000600000000000600000000000210610000000600000000000400000000000314020621941709720100000218040621989615830000000600000000000400000000000)
 (.leaf 800000000000220570622001414920611952200000000000400000000000800000000000800000000000400000000000100000000000100000000000600000000000100000000000400000000000300000000000200000000000200000000000400000000000200000000000600000000000300000000000200000000000500000000000800000000000700000000000400000000000300000000000400000000000800000000000605120100000400000000000616060000000800000000000410640611952400000000000600000000000300000000000824600622009400000000000600000000000200000000000600000000000100000000000600000000000900000000000900000000000600000000000900000000000200000000000600000000000000000000000500000000000900000000000200000000000200000000000623970000000800000000000600000000000400000000000800000000000800000000000800000000000000000000000200000000000300000000000))))
 (.node 4 (.node 2 (.node 1 (.leaf 600000000000406980000000614290000000400000000000300000000000423500000000407900611972600000000000600000000000600000000000600000000000100000000000600000000000200000000000600000000000300000000000201960000000500000000000400000000000600000000000616930611977800000000000400000000000200000000000200000000000500000000000600000000000600000000000200000000000600000000000200000000000800000000000200000000000900000000000600000000000821050000000214820000000600000000000400000000000400000000000400000000000600000000000100000000000417040000000400000000000900000000000600000000000100000000000800000000000200000000000200000000000600000000000300000000000418220000000800000000000600000000000700000000000200000000000400000000000900000000000600000000000800000000000600000000000700000000000)
 (.leaf 300000000000600000000000821150621986200000000000800000000000600000000000900000000000600000000000309700621979300000000000800000000000800000000000300000000000200000000000300000000000300000000000400000000000500000000000400000000000700000000000400000000000600000000000600000000000800000000000200000000000600000000000200000000000400000000000100000000000800250000000300000000000400000000000300000000000600000000000400000000000400000000000500000000000600000000000300000000000300000000000600000000000200000000000700000000000510220100000600000000000600000000000808480100000400000000000500000000000500000000000800000000000600000000000400000000000600000000000800000000000800000000000700000000000400050000000800000000000800000000000800000000000800000000000400000000000900000000000))
 (.node 1 (.leaf 600000000000603830621969600000000000900000000000400000000000800000000000800000000000923010100000600000000000300000000000400000000000900000000000400000000000700000000000400000000000800000000000800000000000800000000000600000000000800000000000800000000000222860100000900000000000900000000000800000000000400000000000200000000000400000000000200070000000600000000000500000000000900000000000800000000000300000000000300000000000500000000000600000000000400000000000200000000000600000000000300000000000300000000000400000000000300000000000700000000000200000000000600000000000900000000000419090000000800000000000600000000000800000000000400000000000200000000000419170621974200000000000800000000000300000000000600000000000719120621982500000000000400000000000600000000000600000000000)
 (.leaf 600000000000800000000000600000000000400000000000700000000000404560000000800000000000900000000000400000000000300000000000700000000000900000000000900000000000110280611901100000000000600000000000300000000000400000000000200000000000421350000000600000000000600000000000200000000000300000000000100000000000200000000000200000000000100000000000200000000000200000000000100000000000200000000000200000000000200000000000100000000000100000000000300000000000800000000000000000000000300000000000400000000000200000000000200000000000200000000000002450100000200000000000100000000000200000000000200000000000800000000000200000000000300000000000400000000000500000000000400000000000400000000000400000000000600000000000700000000000600000000000600000000000617330611989901630621973614690000000)))
 (.node 2 (.node 1 (.leaf 900000000000600000000000300000000000600000000000118670000000900040000000618660000000600000000000600000000000602520000000500000000000400000000000610840000000500000000000800000000000800000000000800000000000900000000000800000000000800000000000400000000000800000000000800000000000800000000000800000000000800000000000800000000000900000000000800000000000800000000000800000000000800000000000800000000000800000000000900000000000400000000000800000000000600000000000600000000000405970000000600000000000400380000000400000000000400000000000500000000000400000000000600000000000600000000000700000000000600000000000400000000000300000000000400000000000600000000000300000000000600000000000600000000000400000000000400000000000100000000000400000000000322350100000500000000000400000000000)
 (.leaf 700000000000600000000000500000000000700000000000500000000000100000000000500000000000600000000000600000000000600000000000400000000000500000000000701770000000400000000000400000000000600000000000600000000000400000000000200000000000400000000000400880000000400000000000600000000000600000000000900000000000600000000000100000000000400000000000600000000000600000000000600000000000400000000000400000000000300000000000200000000000600000000000500000000000600000000000800000000000400000000000400270100000400000000000400000000000200000000000600060000000300000000000700000000000400000000000200000000000200000000000600000000000801700100000500000000000700000000000800000000000600000000000700000000000200000000000601460100000500000000000600000000000600000000000300000000000600000000000))
 (.node 1 (.leaf 900000000000500000000000400000000000500000000000200000000000400000000000600000000000800000000000600000000000600000000000600000000000400000000000700000000000600000000000900000000000800000000000400000000000102040100000600000000000500000000000400000000000200000000000600000000000600000000000900000000000600000000000700000000000400000000000400000000000600080000000500000000000100000000000822770100000601940100000600640000000400000000000700000000000211520100000419590000000400000000000400000000000619580000000500000000000600000000000600000000000400150000000400000000000600000000000200000000000300000000000300000000000500000000000400000000000906220100000500000000000600000000000400000000000400000000000300000000000700000000000900000000000600000000000600000000000600000000000)
 (.leaf 400000000000600000000000400000000000100000000000422030000000500000000000512100100000600000000000600000000000800000000000300000000000500000000000608580100000600000000000100000000000400000000000900000000000700000000000218681421934200000000000200000000000800000000000400240000000300000000000700000000000400000000000800000000000606290000000600000000000600830621967600000000000700000000000600000000000800000000000500000000000400000000000400000000000400000000000400000000000800000000000300000000000400000000000800000000000411910621959800000000000400000000000800000000000000740100000400000000000300000000000600000000000610830100000800000000000600000000000700000000000118670000000600000000000422640000000000000000000100700621978300000000000600000000000200000000000600000000000)))))))
 (.node 32 (.node 16 (.node 8 (.node 4 (.node 2 (.node 1 (.leaf 604690100000400000000000100000000000100000000000600000000000900000000000401240000000600000000000400000000000100000000000312920000000400000000000800000000000800000000000800000000000400000000000400000000000600000000000900000000000400000000000400000000000400000000000600000000000300000000000400000000000300000000000400000000000400000000000600000000000400460000000400000000000900000000000123580622009302760621968119410000000600000000000500000000000600000000000600000000000600000000000800390000000800000000000200000000000300000000000000000000000200000000000600000000000800000000000600000000000619720621930300000000000400000000000900000000000800000000000600000000000600010000000100000000000400000000000821720000000400000000000600000000000100000000000800000000000200000000000)
 (.leaf 1760100000324670100000500000000000400000000000400140000000600000000000500000000000800000000000207270100000600000000000200000000000900040000000500000000000600000000000300000000000000000000000900000000000600000000000700000000000400000000000200000000000400000000000600000000000700000000000400000000000300000000000900000000000400000000000600000000000600000000000001780100000400000000000401400000000423570000000200000000000500000000000602440000000600000000000200000000000200000000000600000000000400000000000404940621943100000000000614580000000406020621969600000000000100000000000500000000000801430100000623160622009400000000000600000000000900000000000205780000000402380621974600000000000900000000000500000000000100000000000200000000000800000000000900000000000600000000000))
 (.node 1 (.leaf 700000000000500000000000404730100000600000000000500000000000918520621961600000000000600000000000300000000000404960000000000000000000800000000000319300000000600000000000300000000000800000000000400000000000700000000000300000000000610610100000400000000000314020000000800000000000615830621978610420100000317620611936214370621970900000000000800000000000200000000000100000000000800000000000400000000000200000000000319210611937400000000000400000000000200000000000600000000000300000000000200000000000900000000000000000000000500000000000000000000000300000000000223560000000200000000000100000000000600000000000200000000000400000000000620730621996600000000000824090622013400000000000000000000000600000000000800000000000800000000000900000000000600000000000300000000000300000000000)
 (.leaf 900000000000600000000000600000000000100000000000300000000000200000000000800000000000900000000000823970000000800000000000800000000000600000000000400000000000200000000000400000000000900000000000406980000000614290621964400000000000200000000000318800000000723500622006400000000000300000000000300000000000600000000000600000000000000000000000500000000000000000000000200000000000500000000000400000000000200000000000900000000000600000000000401960621963100000000000100000000000600000000000600000000000600000000000800000000000000000000000400000000000600000000000900000000000200000000000200000000000400000000000100000000000800000000000600000000000600000000000400000000000100000000000200000000000600000000000600000000000400000000000600000000000200000000000200000000000400000000000)))
 (.node 2 (.node 1 (.leaf 400000000000118220000000600000000000600000000000400000000000800000000000700000000000300000000000500000000000200000000000900000000000600000000000200000000000600000000000800000000000500000000000200000000000600000000000200000000000600000000000200000000000200000000000100000000000400000000000900000000000900000000000600000000000100000000000200000000000400000000000600250000000200000000000400000000000600000000000600000000000400000000000400000000000600000000000500000000000500000000000200000000000300000000000600000000000500000000000900000000000400000000000923080000000800000000000800000000000700000000000800000000000800000000000800000000000800000000000400000000000300050000000800000000000700000000000600000000000900000000000400000000000800000000000900000000000800000000000)
 (.leaf 800000000000600000000000600000000000600000000000700000000000421270000000800000000000800000000000800000000000800000000000600000000000923220000000600000000000600000000000800000000000400000000000800000000000800000000000800000000000200000000000500000000000200000000000300070000000500000000000603470621978800000000000200000000000700000000000406870000000600000000000500000000000600000000000800000000000900000000000300000000000119090621978800000000000600000000000400000000000600000000000419160621973000000000000419110000000600000000000600000000000800000000000200000000000200000000000505950100000500000000000800000000000400000000000404560621999900000000000000000000000700000000000600000000000308030611976600000000000300000000000700000000000200000000000418310000000200000000000))
 (.node 1 (.leaf 200000000000300000000000400000000000200000000000300000000000400000000000200000000000200000000000400000000000100000000000405710000000400000000000400000000000200000000000200000000000400000000000100000000000200000000000300000000000200000000000600000000000400000000000409590000000400000000000200000000000400000000000500000000000200000000000200000000000400000000000600000000000000000000000600000000000617330000000611180000000600000000000600000000000500000000000500000000000918660000000600000000000600000000000602520100000400000000000610840000000500000000000600000000000500000000000800000000000400000000000800000000000800000000000800000000000800000000000800000000000800000000000800000000000800000000000800000000000800000000000800000000000800000000000900000000000600000000000)
 (.leaf 500000000000500000000000600000000000705970000000600000000000400380000000400000000000400000000000300000000000600000000000800000000000500000000000700000000000600000000000500000000000400000000000600000000000400000000000400000000000400000000000600000000000400000000000600000000000500000000000801770000000600000000000600000000000100000000000400000000000400000000000400000000000600000000000600000000000600000000000400000000000400000000000400000000000101610100000800000000000600000000000800000000000400000000000400000000000600000000000600000000000600000000000900000000000400000000000100000000000400000000000200000000000600000000000400000000000400000000000700000000000600000000000200000000000200000000000400000000000600060000000700000000000400000000000500000000000700000000000))))
 (.node 4 (.node 2 (.node 1 (.leaf 400000000000400000000000600000000000500000000000800000000000400000000000807120000000600000000000600000000000300000000000600000000000400000000000500000000000400000000000800000000000400000000000600000000000800000000000600000000000400000000000600000000000600000000000400000000000400000000000200000000000400000000000500000000000600000000000400000000000900000000000102490000000200000000000600000000000400000000000100000000000400000000000300080000000607090000000400000000000605110100000800640000000400000000000419590000000400000000000400000000000919580621991600000000000123030100000500000000000100151421952409220000000300000000000500000000000500000000000600000000000609190100000500000000000200000000000400000000000800000000000500000000000900000000000600000000000100000000000)
 (.leaf 600000000000600000000000400000000000600000000000422030000000200000000000300000000000500000000000600000000000600000000000500000000000800000000000400000000000600000000000400000000000200240000000400000000000600000000000400000000000200000000000600000000000400000000000906290621937600000000000900000000000600000000000400000000000900000000000700000000000502510100000700000000000400000000000800000000000400000000000400000000000900000000000400000000000300000000000211910000000600000000000600000000000700000000000600340000000400000000000800000000000600000000000800000000000600000000000600000000000422640000000118670000000600000000000600000000000200000000000609100100000800000000000400000000000200000000000600000000000401240621980800000000000800000000000400000000000600000000000))
 (.node 1 (.leaf 400000000000400000000000400000000000400000000000600000000000400000000000612920100000409320000000400000000000400000000000600000000000700000000000400000000000800000000000600000000000300000000000300000000000200000000000000460100000800000000000800000000000600000000000200000000000419411421932900000000000800390000000800000000000600000000000400000000000900000000000822740000000600000000000600000000000600000000000600000000000600000000000200000000000621720000000600000000000700000000000310780621954400350000000700000000000600000000000400000000000200000000000200000000000500000000000400140000000600000000000600000000000600000000000600040000000600000000000004970100000507740100000200000000000400000000000600000000000500000000000500000000000700000000000700000000000400000000000)
 (.leaf 221610000000500000000000400000000000600000000000400000000000600000000000600000000000405450000000401400100000423570000000302440621953300000000000800000000000600000000000400000000000615350621979200000000000300000000000400000000000900000000000409870100000600000000000200000000000900000000000700000000000600000000000600000000000200000000000304110000000800000000000800000000000405780622002700000000000600000000000400000000000500000000000000000000000800000000000300000000000900000000000800000000000404960621936200000000000600000000000400000000000213820000000600000000000600000000000618690000000100000000000800000000000800000000000900000000000304500000000600000000000312600621951800000000000317620000000100000000000100000000000400000000000100000000000410030000000319210000000)))
 (.node 2 (.node 1 (.leaf 900000000000300000000000600000000000200000000000600000000000200000000000623560622016400000000000000000000000400000000000824070000000623930622000821520100000300000000000800000000000500000000000600000000000600000000000900000000000600000000000500000000000600000000000300000000000300000000000100000000000600000000000623970000000000000000000800000000000800000000000600000000000400000000000400000000000400000000000600000000000400000000000800000000000000000000000418370621994300000000000500000000000300000000000600000000000816820611994600000000000600000000000500000000000200000000000600000000000220970611968200000000000200000000000600000000000200000000000900000000000900000000000800000000000600000000000621050000000200000000000200000000000800000000000423750000000400000000000)
 (.leaf 800000000000600000000000200000000000800000000000410080000000200000000000600000000000200000000000500000000000800000000000400000000000200000000000400000000000300000000000300000000000100000000000100000000000400000000000900000000000600000000000200000000000800000000000500000000000600000000000200000000000600000000000522210100000200000000000500000000000400000000000600000000000600000000000400000000000200000000000800000000000200000000000600000000000400000000000800250000000600000000000600000000000400000000000400000000000300000000000600000000000300000000000200000000000400000000000623080100000800000000000700000000000500000000000900000000000800000000000400000000000700000000000800000000000900000000000400050000000700000000000600000000000800000000000800000000000800000000000))
 (.node 1 (.leaf 600000000000600000000000800000000000800000000000700000000000400000000000421270622004900000000000823220000000800000000000900000000000900000000000900000000000400000000000400000000000800000000000800000000000100000000000200000000000200070100000600000000000900000000000700000000000406870621978300000000000200000000000600000000000800000000000800000000000200000000000101010000000600000000000400000000000500000000000419180000000419110621999912420100000500000000000600000000000800000000000300000000000300000000000600000000000400000000000400000000000500000000000300000000000400000000000600000000000400000000000200000000000600000000000200000000000400000000000200000000000200000000000200000000000405710611981500000000000200000000000400000000000600000000000000000000000200000000000)
 (.leaf 300000000000809590000000200000000000600000000000700000000000200000000000200000000000200000000000400000000000400000000000000000000000600000000000200000000000311180100000800000000000300000000000600010000000818660000000600000000000600000000000500000000000400000000000610840000000500000000000500000000000800000000000800000000000800000000000400000000000800000000000800000000000800000000000800000000000800000000000800000000000800000000000800000000000600000000000600000000000800000000000500000000000505970100000600000000000400380000000500000000000400000000000600000000000600000000000500000000000411870100000600000000000500000000000400000000000400000000000600000000000612850100000601770000000800000000000600000000000200000000000700000000000400000000000600000000000400000000000)))))
 (.node 8 (.node 4 (.node 2 (.node 1 (.leaf 600000000000600000000000600000000000400000000000400000000000600000000000600000000000400000000000400000000000407830000000600000000000600000000000800000000000400000000000400000000000400000000000600000000000800000000000407070100000400000000000400000000000200000000000200000000000800000000000700000000000500000000000400000000000400000000000700000000000400000000000900000000000407120000000200000000000600000000000500000000000600000000000200000000000400000000000700000000000400000000000600000000000400000000000600000000000600000000000400000000000600000000000500000000000400000000000900000000000100000000000600000000000600000000000400000000000400000000000402490100000907090100000500000000000800640000000400000000000400000000000600080000000605190100000619580000000400000000000)
 (.leaf 219590000000400000000000400000000000600000000000409220100000211090100000400150000000800000000000900000000000607930100000600000000000400000000000600000000000600000000000600000000000600000000000400000000000600000000000422030000000900000000000900000000000500000000000600000000000600000000000400000000000600000000000300000000000500000000000800000000000400000000000200240000000607140000000600000000000700000000000600000000000400000000000200000000000800000000000600000000000800000000000809120000000600000000000400000000000400000000000400000000000400000000000400000000000800000000000802090100000600000000000600000000000400000000000900000000000800340000000500000000000600000000000900000000000600000000000422640721981600000000000600000000000118670000000300000000000200260000000))
 (.node 1 (.leaf 700000000000400000000000600000000000200000000000400000000000400000000000300000000000600000000000400000000000415691421970200000000000400000000000600000000000401990100000400000000000700000000000600000000000112670000000808800100000600000000000900000000000600000000000800390100000400000000000600000000000900000000000202760000000600000000000900000000000600000000000800000000000600000000000600000000000200000000000600000000000621720100000400000000000600000000000400000000000700350000000900000000000400000000000210780000000400140000000200000000000800000000000600000000000618030000000200000000000600040000000600000000000400000000000300000000000600000000000700020000000700000000000400000000000600000000000521610100000400000000000300000000000105450621978400000000000400000000000)
 (.leaf 900000000000900000000000600000000000600000000000400000000000216180000000100000000000600000000000400000000000400000000000600000000000500000000000619900621967600000000000800000000000600000000000300000000000400000000000400000000000205780000000604110000000600000000000100000000000900000000000600000000000900000000000823730622004724650621924600000000000600000000000700000000000600000000000800000000000200000000000700000000000600000000000213820621921800000000000400000000000800000000000809920000000304500621973320590621965200000000000600000000000200000000000900000000000100000000000410030611963614120611942300000000000200000000000600000000000600000000000624570000000424070622007800620000000100000000000400000000000200000000000601680000000900000000000200000000000800000000000)))
 (.node 2 (.node 1 (.leaf 600000000000600000000000300000000000600000000000100000000000800000000000800000000000400000000000623970000000200000000000408570100000200000000000200000000000800000000000600000000000200000000000500000000000600000000000600000000000500000000000600000000000600000000000800000000000600000000000400000000000500000000000000000000000600000000000800000000000600000000000200000000000300000000000621050000000400000000000200000000000823750000000600000000000600000000000400000000000800000000000600000000000400000000000410080100000200000000000800000000000400000000000400000000000200000000000200000000000600000000000400000000000400000000000800000000000600000000000800000000000600000000000600000000000200000000000300000000000200190000000200000000000600000000000500000000000400000000000)
 (.leaf 600000000000100000000000200000000000600000000000600000000000200000000000400000000000600000000000600000000000500000000000600000000000800000000000400000000000910750100000600000000000800000000000800000000000600000000000900000000000400050100000800000000000800000000000800000000000900000000000600000000000800000000000500000000000800000000000900000000000700000000000600000000000400000000000823220000000700000000000600000000000900000000000800000000000900000000000800000000000800000000000700000000000100000000000400000000000204420100000600000000000600000000000400000000000700000000000400000000000200000000000600000000000200000000000500000000000800000000000400000000000201010000000819180621975900000000000600000000000600000000000000000000000200000000000300000000000800000000000))
 (.node 1 (.leaf 300000000000400000000000400000000000200000000000100000000000200000000000300000000000100000000000400000000000400000000000200000000000409590611978200000000000200000000000000670100000600000000000400000000000500000000000300000000000400000000000500000000000600000000000600000000000900000000000600000000000200060000000600010000000818660000000500000000000600000000000500000000000510840100000800000000000800000000000800000000000800000000000400000000000800000000000800000000000800000000000800000000000800000000000800000000000800000000000800000000000600000000000600000000000800000000000400380000000400000000000600000000000600000000000400000000000600000000000100000000000500000000000600000000000601770100000700000000000600000000000400000000000400000000000200000000000400000000000)
 (.leaf 600000000000300000000000800000000000500000000000800000000000600000000000600000000000400000000000500000000000107830100000600000000000600000000000400000000000700000000000400000000000500000000000800000000000900000000000800000000000401320000000400000000000400000000000700000000000200000000000300000000000400000000000700000000000400000000000407120100000400000000000600000000000900000000000600000000000800000000000400000000000600000000000400000000000200000000000600000000000900000000000506520000000400000000000600000000000400000000000800000000000400000000000600420000000600000000000100000000000400000000000400080000000200000000000700000000000300080000000602400100000800000000000400000000000400000000000400000000000600000000000619590000000400000000000800000000000800080000000))))
 (.node 4 (.node 2 (.node 1 (.leaf 400000000000400000000000600000000000600000000000400000000000800000000000200840000000800000000000600000000000600000000000200000000000600000000000422030000000500000000000300000000000900000000000400000000000600000000000700000000000600000000000400000000000800000000000807140000000600000000000600000000000900000000000500000000000411420100000809120100000600000000000800000000000400000000000100000000000800000000000800000000000806030100000400000000000400000000000900000000000800340000000600000000000300000000000800000000000800000000000800000000000600000000000400470000000600000000000600000000000400000000000800000000000418670000000300000000000600000000000200260000000400000000000400000000000200000000000400000000000200000000000519661421986300000000000400000000000400000000000)
 (.leaf 900000000000409320100000400000000000400000000000600000000000600000000000409210100000812670000000800000000000600000000000800000000000600000000000600000000000600000000000419760000000800000000000600000000000500000000000600000000000000000000000800350000000802180100000600000000000600000000000400000000000400000000000900000000000600000000000400140000000900000000000318030621950200000000000600040100000200000000000507880100000400020000000600000000000400000000000600000000000400000000000300000000000700000000000200000000000800000000000611140000000400000000000100000000000623710000000300000000000600000000000400000000000600000000000700000000000200000000000800000000000600000000000300000000000619900000000400000000000800000000000400000000000100000000000800000000000104110621987))
 (.node 1 (.leaf 800000000000600000000000300000000000400000000000600000000000600000000000800000000000907850621938700000000000200000000000400000000000604450621944800000000000900000000000800000000000300000000000600000000000400000000000300000000000600000000000200000000000600000000000200000000000200000000000400000000000500000000000100000000000300000000000300000000000200000000000600000000000624570622009723860000000900000000000100000000000601680000000400000000000800000000000300000000000200000000000600000000000300000000000600000000000800000000000900000000000300000000000800000000000223970622009200000000000900000000000600000000000200000000000300000000000423450622005600000000000300000000000600000000000600000000000600000000000300000000000000000000000300000000000200000000000200000000000)
 (.leaf 621050621981600000000000400000000000814500611964200000000000600000000000900000000000400000000000500000000000900000000000200000000000000000000000800000000000003980100000100000000000400000000000200000000000600000000000800000000000300000000000200000000000700000000000800000000000200000000000522210000000300000000000200190000000600000000000200000000000700000000000200000000000400000000000100000000000200000000000818661421954600000000000400000000000405540000000600000000000300000000000500000000000903340100000700000000000800000000000400000000000800000000000800000000000800000000000800000000000800000000000700000000000400000000000600000000000600000000000600000000000800000000000800000000000400000000000800000000000823220622002700000000000800000000000600000000000800000000000)))
 (.node 2 (.node 1 (.leaf 800000000000400000000000400000000000200000000000200000000000100000000000800000000000600000000000700000000000700000000000400000000000600000000000208270100000600000000000900000000000100000000000403710000000900000000000600000000000400000000000300000000000300000000000500000000000600000000000200000000000100000000000200000000000300000000000300000000000100000000000200000000000100000000000700000000000400000000000600000000000300000000000200000000000200000000000200000000000400000000000600000000000600000000000914690611963300000000000600010000000600000000000500000000000500000000000800000000000800000000000800000000000800000000000700000000000800000000000800000000000800000000000800000000000800000000000800000000000600000000000800000000000400380000000200000000000600000000000)
 (.leaf 500000000000400000000000600000000000400000000000600000000000600000000000900000000000600000000000800000000000600000000000600000000000400000000000400000000000500000000000600000000000600000000000400000000000400000000000500000000000600000000000800000000000600000000000700000000000400000000000400000000000400000000000401320100000400000000000400000000000500000000000100000000000200000000000400000000000400060000000500000000000500000000000800000000000900000000000400000000000600000000000200000000000600000000000700000000000200000000000600000000000400000000000900000000000800000000000200000000000700000000000900420000000800000000000400000000000400080000000600000000000600000000000400000000000400000000000800000000000400000000000600000000000319591421948400000000000100000000000))
 (.node 1 (.leaf 700000000000600000000000600000000000623110000000400000000000800000000000900000000000800000000000422030000000400840000000400000000000100000000000600000000000600000000000400000000000807140621940300000000000400000000000800000000000800000000000600000000000600000000000210210100000600000000000600000000000800000000000800000000000602900100000700000000000900000000000400340000000400000000000400000000000400000000000400000000000400000000000800000000000900000000000600000000000600000000000400470000000300000000000600000000000400000000000900000000000118670000000400000000000800000000000800000000000300000000000606250100000600000000000200000000000400000000000400000000000300000000000400000000000100000000000400000000000600000000000412670100000800000000000900000000000418630000000)
 (.leaf 700000000000600000000000600000000000800000000000800000000000600000000000219760000000800350000000809660100000600000000000600000000000600000000000100000000000800000000000400000000000600000000000300000000000100140000000600030000000600000000000600000000000600000000000400000000000300000000000401020000000700000000000200000000000000000000000611140621941500000000000600000000000823710622009400000000000400000000000600000000000400000000000300000000000600000000000600000000000600000000000100000000000500000000000400000000000400000000000900000000000102050000000900000000000105430000000500000000000400000000000700000000000300000000000600000000000820230000000700000000000600000000000700000000000500000000000600000000000800000000000200000000000609920100000600000000000200000000000))))))
 (.node 16 (.node 8 (.node 4 (.node 2 (.node 1 (.leaf 300000000000400000000000315060000000300000000000400000000000200000000000300000000000800000000000600000000000300000000000200000000000600000000000800000000000801680000000400000000000100000000000200000000000600000000000000000000000000000000000600000000000300000000000200000000000800000000000300000000000200000000000800000000000300000000000200000000000200000000000424380622007600000000000300000000000900000000000600000000000800000000000200000000000600000000000600000000000803730000000300000000000800000000000700000000000800000000000200000000000600110000000200000000000200000000000112590100000800000000000600000000000800000000000607860622013400000000000200000000000200000000000600000000000400000000000200190000000200000000000600000000000400000000000718660000000200000000000)
 (.leaf 300000000000600000000000105540100000600000000000600000000000622390000000400720100000600000000000800000000000400000000000600000000000800000000000800000000000400000000000400000000000600000000000600000000000800000000000500000000000800000000000800000000000800000000000800000000000421250000000800000000000500000000000900000000000800000000000800000000000900000000000600000000000300000000000800000000000621290621971200000000000700000000000400000000000600000000000600000000000900000000000201040000000403710000000200000000000500000000000600000000000400000000000600000000000600000000000300000000000200000000000200000000000200000000000600000000000200000000000200000000000400000000000100000000000200000000000200000000000300000000000300000000000500000000000200000000000700000000000))
 (.node 1 (.leaf 600000000000600000000000600000000000600000000000300010000000400020000000500000000000600000000000500000000000800000000000800000000000400000000000800000000000800000000000800000000000800000000000800000000000800000000000600000000000400380000000400000000000900000000000400000000000600000000000600000000000600000000000600000000000500000000000600000000000800000000000800000000000400000000000600000000000800000000000600000000000400000000000400000000000600000000000600000000000700000000000400000000000400000000000500000000000800000000000800000000000400000000000800000000000700000000000100000000000400060000000500000000000900000000000600000000000700000000000600000000000600000000000700000000000600000000000300000000000700000000000400000000000600420100000600000000000300000000000)
 (.leaf 400000000000400080000000323590622012600000000000400000000000400000000000400000000000400000000000800000000000400000000000400000000000600000000000600000000000400130000000800000000000923110000000700000000000600000000000600000000000122030000000200840000000400000000000600000000000600410000000300000000000400000000000800000000000700000000000600000000000400000000000600000000000800000000000400000000000800000000000600000000000600000000000400240000000700000000000800000000000605640000000800340000000600000000000500000000000500000000000400000000000800000000000400000000000400000000000900000000000300000000000400470621977500000000000600000000000700000000000600000000000400000000000800000000000500000000000300320000000300000000000400000000000401090000000100000000000400000000000)))
 (.node 2 (.node 1 (.leaf 403290000000800000000000800000000000900000000000200000000000600000000000700000000000203290000000200940000000400000000000600000000000600000000000600350000000000950100000900000000000219760000000600000000000600000000000601550000000400000000000200000000000800000000000503820100000100140000000600030000000300000000000300000000000400000000000800000000000221900621937401020000000200000000000600000000000624470622012600000000000400000000000000000000000600000000000612250100000600000000000619260000000500000000000300000000000400000000000500000000000700000000000600000000000402050000000405430611992700000000000400000000000720230000000600000000000400000000000400000000000400000000000617640621967600000000000618691421953300000000000600000000000100000000000200000000000100000000000)
 (.leaf 300000000000200000000000900000000000200000000000300000000000600000000000600000000000200000000000200000000000200000000000400000000000100000000000800000000000200000000000800000000000800000000000600000000000800000000000220840621992000000000000600000000000200000000000400000000000600000000000200000000000900000000000600000000000500000000000500000000000600000000000600000000000600000000000603730611960800000000000800000000000500000000000600000000000200000000000500000000000200000000000800000000000100000000000700000000000800000000000400000000000200000000000300000000000800000000000400000000000000190100000200000000000200000000000700800100000600000000000200000000000300000000000402870100000600000000000400000000000900000000000800000000000400000000000600000000000800000000000))
 (.node 1 (.leaf 400000000000800000000000700000000000600000000000800000000000400000000000400000000000800000000000700000000000500000000000900000000000900000000000800000000000800000000000200000000000400000000000600000000000600000000000400000000000600000000000002970100000800000000000401040100000403710621979600000000000600000000000800000000000200000000000600000000000300000000000100000000000200000000000200000000000400000000000100000000000600000000000400000000000400000000000400000000000200000000000200000000000500000000000400000000000200000000000300000000000500000000000600000000000600010000000600000000000800000000000800000000000800000000000800000000000800000000000800000000000800000000000400000000000800000000000600000000000400380000000600000000000200000000000400000000000600000000000)
 (.leaf 800000000000600000000000900000000000600000000000600000000000700000000000400000000000400000000000600000000000400000000000400000000000200000000000800000000000600000000000400000000000800000000000600000000000402700000000400000000000800000000000100000000000800000000000400060000000400000000000800000000000600000000000700000000000600000000000400000000000608690000000900000000000600000000000100000000000603370000000800000000000600000000000400000000000400080000000800990000000400000000000400000000000623590000000400000000000400000000000400000000000400000000000700000000000600000000000600000000000400000000000600000000000400130000000600000000000600000000000400000000000200840000000800000000000600000000000600000000000300410621941400000000000900000000000600000000000400000000000))))
 (.node 4 (.node 2 (.node 1 (.leaf 600000000000300000000000400000000000416200000000900000000000300000000000900000000000200241421942605640100000400000000000600000000000500000000000400000000000800000000000600000000000400470000000400000000000600000000000500000000000400000000000600000000000400000000000400000000000800000000000801090000000600000000000900000000000900320100000600000000000500000000000700000000000203290000000100000000000600000000000300000000000800000000000400940000000600000000000300000000000600000000000700350000000600000000000900000000000419760000000601550000000600000000000400000000000100000000000600000000000600000000000400000000000400000000000701020621970214150621937416160000000300000000000617830000000600000000000100000000000600000000000600000000000619260000000400000000000400000000000)
 (.leaf 500000000000600000000000700000000000102050621963320210612000400000000000820230621944300000000000100000000000800000000000400000000000600000000000200000000000202140000000300000000000300000000000100000000000300000000000600000000000400000000000600000000000600000000000000000000000600000000000500000000000700000000000300000000000624520000000000000000000200000000000600000000000800000000000200000000000300000000000000000000000615930621964600000000000400000000000200000000000200000000000600000000000200000000000600000000000300000000000600000000000600000000000600000000000400000000000400000000000600000000000424690622018400000000000700000000000600000000000200000000000200000000000800000000000400000000000200000000000200000000000802410100000200000000000600000000000200000000000))
 (.node 1 (.leaf 500000000000600000000000600000000000100000000000800000000000900000000000900000000000400000000000600000000000900000000000400000000000700000000000900000000000900000000000600000000000800000000000800000000000800000000000800000000000800000000000800000000000800000000000200000000000200000000000500000000000600000000000600000000000400000000000101010000000200000000000700000000000300000000000300000000000200000000000300000000000400000000000600000000000200000000000400000000000100000000000200000000000200000000000200000000000100000000000200000000000600000000000500000000000600010000000800000000000800000000000600000000000800000000000800000000000800000000000800000000000800000000000800000000000700000000000600000000000400380000000600000000000400000000000400000000000600000000000)
 (.leaf 400000000000900000000000600000000000500000000000700000000000800000000000400000000000800000000000605800100000600000000000800000000000400000000000800000000000600000000000500000000000100000000000900000000000402700000000900000000000700000000000800000000000100000000000400060000000800000000000400000000000600000000000600000000000600000000000400000000000800000000000600000000000903370000000400000000000600640000000400000000000400080000000610340100000400000000000900000000000823590000000500000000000100000000000400000000000800080000000200000000000600130000000600000000000700000000000500000000000400130000000600000000000800000000000400000000000400000000000600000000000600000000000513080100000400840621954400000000000600000000000600000000000400000000000900000000000600000000000)))
 (.node 2 (.node 1 (.leaf 400000000000600000000000416200621965300000000000600000000000603570100000400000000000800000000000800000000000800000000000419650000000400000000000300000000000400000000000600000000000700000000000600000000000801090000000800000000000904070100000700000000000400000000000600000000000600000000000603010000000400100000000303290621964200000000000000940100000200000000000600000000000400350000000900000000000600000000000200000000000600000000000719760611941601550000000800000000000500000000000200000000000900000000000900000000000400000000000815640000000800000000000600000000000100000000000817830621988300000000000600000000000403460000000600000000000900000000000400000000000800000000000600000000000400000000000420140000000400000000000202050000000200000000000600000000000400000000000)
 (.leaf 800000000000000000000000600000000000600000000000302140100000200000000000300000000000300000000000400000000000400000000000200000000000600000000000500000000000224520622013200000000000800000000000200000000000200000000000600000000000624580000000600000000000120900000000423770000000600000000000200000000000600000000000000000000000200000000000600000000000300000000000800000000000700000000000700000000000724690000000700000000000800000000000600200000000400000000000800000000000400000000000700000000000200000000000400000000000300000000000200000000000600000000000600000000000800000000000600000000000600000000000800000000000400000000000600000000000900000000000800000000000600000000000823180000000800000000000800000000000800000000000800000000000800000000000600000000000800000000000))
 (.node 1 (.leaf 800000000000300000000000200000000000300000000000007560100000101010621973200000000000700000000000300000000000300000000000200000000000600000000000400000000000600000000000100000000000400000000000400000000000200000000000200000000000500000000000400000000000200000000000300000000000300010000000500000000000500000000000800000000000800000000000600000000000800000000000500000000000600000000000600000000000400000000000800000000000600000000000700000000000800000000000600000000000400000000000900000000000600000000000400000000000800000000000800000000000600000000000400000000000500000000000600000000000600000000000400000000000402700000000400000000000400000000000500000000000400060000000400000000000100000000000900000000000600000000000600000000000400000000000700000000000408140100000)
 (.leaf 200000000000400000000000600640000000400000000000100080000000900990100000600000000000923590000000100000000000400000000000700000000000200130000000600000000000600000000000800000000000900000000000600000000000800000000000100000000000400000000000600000000000601500000000600000000000400000000000800000000000400000000000700000000000400000000000200000000000800000000000900000000000607620100000600000000000400000000000900000000000419650621978500000000000900000000000700000000000300000000000600000000000401090000000400000000000800100000000400710000000800000000000100000000000900000000000600000000000603010000000303550000000600000000000600000000000400351421960415010000000200000000000415680621958200000000000600000000000601550000000900000000000300010000000600000000000200000000000)))))
 (.node 8 (.node 4 (.node 2 (.node 1 (.leaf 600000000000615640000000400000000000400000000000300000000000500000000000100000000000600000000000600000000000403460621957600000000000600000000000400000000000400000000000300000000000700000000000400000000000400000000000202070000000600000000000600000000000400000000000619330000000600000000000200000000000300000000000400000000000100000000000500000000000300000000000620720000000223530622012600000000000200000000000200000000000216120000000600000000000624580622005420900000000400000000000900000000000800000000000200000000000600000000000700000000000200000000000400000000000200000000000600000000000802030611966700000000000800000000000200200000000400000000000800000000000200000000000400000000000400000000000400000000000200000000000600000000000300000000000600000000000700000000000)
 (.leaf 300000000000800000000000300000000000800000000000900000000000800000000000923180000000700000000000800000000000400000000000600000000000800310000000704550100000800000000000700000000000300000000000200000000000300000000000204190621968400000000000200000000000300000000000600000000000400000000000400000000000200000000000200000000000700000000000100000000000300000000000500000000000400000000000200000000000600000000000500000000000500000000000400000000000500000000000600000000000622840000000400000000000500000000000900000000000600000000000600000000000800000000000500000000000700000000000800000000000400000000000400000000000600000000000600000000000700000000000600000000000400000000000102700000000800000000000400000000000400060000000600000000000800000000000800000000000200000000000))
 (.node 1 (.leaf 208890000000400000000000703370100000400000000000809860100000600640000000900000000000700000000000700000000000100080000000100000000000400000000000100000000000900000000000600000000000800000000000600130000000400000000000700000000000600000000000600000000000601500000000201740000000600000000000800000000000900000000000400000000000800000000000900000000000600000000000605380100000800000000000600000000000500000000000800000000000400000000000500000000000800000000000401090000000900000000000600000000000400710000000600000000000900000000000400000000000603010000000800000000000900000000000603550621976700000000000405530100000100580000000215680000000600000000000801550621957600000000000600010100000600000000000600000000000815640621958400000000000400000000000200000000000100000000000)
 (.leaf 600000000000600000000000700000000000900000000000200000000000400000000000200000000000700000000000400000000000602070000000816100000000600000000000100000000000219330621966600000000000200000000000200000000000800000000000400000000000620720000000500000000000600000000000216050622000200000000000200000000000600000000000316120000000600000000000600000000000420900622006200000000000800000000000200000000000700000000000000000000000800000000000500000000000500000000000800000000000800000000000400000000000800000000000600200000000400000000000900000000000400000000000200000000000200000000000800250100000200000000000600000000000100000000000800000000000600000000000500000000000900000000000900000000000800000000000900000000000823180622011800000000000900000000000800000000000800000000000)))
 (.node 2 (.node 1 (.leaf 800310000000800000000000800000000000800000000000300000000000300000000000800000000000100000000000200000000000200000000000600000000000400000000000400000000000800000000000600000000000400000000000100000000000600000000000800000000000200000000000300000000000400000000000600000000000622840000000400000000000400000000000500000000000600000000000600000000000500000000000600000000000500000000000700000000000800000000000600000000000600000000000800000000000400000000000400000000000402700621989400000000000100060000000600000000000600000000000400000000000608690100000200000000000608890000000602940100000600000000000800000000000400000000000200640000000400080000000400000000000400000000000400000000000800000000000600000000000100130000000800000000000800000000000600000000000800000000000)
 (.leaf 815240000000601500000000900000000000500000000000401740000000400000000000600000000000800000000000500000000000321620000000900000000000500000000000400000000000900000000000901090621990900000000000400710000000600000000000600000000000400000000000803010000000900000000000800100000000400000000000303550000000418070621911601550000000100580000000900000000000415680000000600000000000600030000000610010000000600000000000800000000000400000000000700000000000100000000000600000000000702200000000600000000000600000000000500000000000400000000000400000000000400000000000314360621976400000000000616100621986602070611978600000000000205560000000200000000000300000000000800000000000300000000000300000000000100000000000600000000000900000000000200000000000200000000000600000000000616120000000))
 (.node 1 (.leaf 300000000000600000000000420900000000600000000000400000000000200000000000400000000000400000000000805850100000700000000000522330000000400000000000200200000000400000000000800000000000400000000000500000000000900000000000400000000000600000000000400000000000600000000000800000000000600000000000400000000000800000000000800000000000800000000000800000000000400000000000600000000000800310000000800000000000800000000000800000000000600000000000600000000000400000000000217990000000200000000000300000000000300000000000200000000000200000000000400000000000200000000000200000000000400000000000200000000000400000000000300000000000600000000000400000000000600000000000922840100000200000000000400000000000800000000000600000000000800000000000400000000000700000000000600000000000800000000000)
 (.leaf 900000000000400000000000100000000000400000000000600000000000909960100000400000000000611310100000608890100000100000000000800000000000604630100000900000000000400000000000600640000000400080000000400000000000600000000000400000000000400000000000900000000000400000000000400130100000600000000000900000000000900000000000301500000000101740000000400000000000700000000000800000000000600000000000621620100000900000000000901470000000800000000000900000000000500000000000900000000000900000000000803010611968400000000000600000000000800100000000416220000000400000000000600690000000622740000000600000000000218860000000600000000000400580000000200030000000700000000000600000000000400000000000700000000000400000000000802200621965900000000000600000000000600000000000100000000000700000000000))))
 (.node 4 (.node 2 (.node 1 (.leaf 700000000000314360000000200000000000600000000000600000000000603310000000405560611976218500000000300000000000400000000000200000000000600000000000400000000000600000000000800000000000200000000000900000000000200000000000216120622012600000000000600000000000500000000000800000000000200000000000200000000000400000000000600000000000814630611925800000000000600200000000400000000000800000000000700000000000800000000000200000000000300000000000800000000000600000000000900000000000600000000000800000000000600000000000700000000000600000000000400000000000800000000000800310100000800000000000400000000000800000000000800000000000600000000000200000000000800000000000417990000000300000000000613580000000200000000000100000000000800000000000200000000000201260000000100000000000500000000000)
 (.leaf 600000000000200000000000400060000000400000000000600000000000700380100000400000000000800000000000600000000000900000000000400000000000400000000000400000000000300000000000600000000000400000000000400000000000606330000000400060000000400000000000601210000000602560100000400000000000800000000000605500100000600000000000400000000000800640000000400000000000600000000000400000000000900000000000221700100000500000000000600000000000422030000000600000000000400000000000800000000000601500000000400000000000401740621963906430000000600000000000601470000000400750000000600000000000900000000000600000000000800000000000800100000000200000000000800000000000416220611987500000000000600690000000922740000000600000000000600000000000400580621952313930621963800000000000300030000000600000000000))
 (.node 1 (.leaf 400000000000400000000000800000000000600000000000200000000000900000000000600000000000400000000000400000000000400000000000321780621964320310621997400000000000300000000000603310621964200000000000600000000000200000000000021970100000600000000000400000000000600000000000200000000000800000000000600000000000300000000000400000000000223550622002623540000000600000000000200000000000200000000000400000000000800000000000814630000000700000000000200200000000600000000000700000000000800000000000400000000000800000000000600000000000600000000000800000000000400000000000600000000000400000000000900000000000900000000000800000000000800000000000400000000000800000000000800000000000700000000000800000000000600000000000600000000000400000000000117990621999200000000000210280000000200000000000)
 (.leaf 400000000000400000000000200000000000401260621979100000000000200000000000500000000000400000000000600000000000400000000000500000000000400000000000900000000000600000000000800000000000900000000000400000000000900000000000600000000000800000000000100000000000606330000000400060100000400000000000601210000000400000000000600000000000700000000000907150100000600000000000400000000000600640621967400000000000600000000000600000000000800000000000502370100000600000000000822030100000600000000000900000000000400000000000601500000000100000000000300000000000606430100000900000000000801470000000800000000000600000000000600000000000600000000000500000000000700100000000600000000000200000000000400000000000300690621960022740100000600000000000200000000000400000000000613930000000400000000000)))
 (.node 2 (.node 1 (.leaf 600000000000400000000000700140000000800000000000600000000000600000000000200000000000302010000000700000000000100000000000800000000000800000000000603310000000620360622000300000000000400000000000200000000000300000000000600000000000600000000000800000000000200000000000600000000000200000000000100000000000224550000000623540622009600000000000300000000000200000000000200000000000612230100000700000000000700000000000900000000000200200000000400000000000800000000000100000000000800000000000200000000000600000000000400000000000600000000000400000000000900000000000800000000000800000000000800000000000700000000000900000000000800000000000300000000000100000000000500000000000400000000000200000000000500000000000200000000000200000000000700000000000213400000000201260000000422700000000)
 (.leaf 300000000000300030000000400000000000600000000000700000000000400000000000800000000000600000000000600000000000600000000000400000000000600000000000500000000000900000000000606330100000100000000000400060000000700000000000400000000000601210000000400000000000600000000000600000000000400000000000300000000000400000000000400000000000900000000000900000000000900000000000900000000000600000000000400000000000601500000000400000000000100000000000621660100000600000000000601470000000700750000000600000000000800000000000700100000000800000000000200000000000400000000000602680000000600000000000400000000000200000000000200000000000400000000000600000000000400000000000700000000000600000000000600000000000200000000000400000000000400000000000400000000000402060000000320250000000600000000000))
 (.node 1 (.leaf 300000000000200000000000600000000000800000000000700000000000600000000000300000000000600000000000400000000000511220100000224550000000600000000000800000000000200000000000200000000000407230100000807630100000800000000000800000000000600000000000200200000000200000000000800000000000100000000000600000000000200000000000700000000000800000000000800000000000800000000000900000000000800000000000700000000000900000000000800000000000900000000000600000000000200000000000200000000000200000000000400000000000400000000000200000000000222700711960600000000000000140100000200030000000800000000000600000000000600000000000400000000000400000000000600000000000600000000000700000000000500000000000600000000000600000000000622020000000400000000000400000000000700000000000601210100000400000000000)
 (.leaf 506520100000600000000000400000000000900000000000600000000000400000000000400000000000600000000000600000000000600000000000400000000000201500000000800000000000621590000000418090000000800000000000601470000000600750000000600000000000600000000000400000000000800000000000300000000000602680000000600870000000100000000000115720621969200000000000613750000000800000000000000000000000700000000000600000000000600000000000300000000000400000000000800000000000400000000000402060000000813470621968606900621970600000000000200000000000300000000000600000000000700000000000600000000000200000000000300000000000100000000000600000000000324550622014800000000000200000000000600000000000500000000000300000000000400000000000800110000000600000000000300200621965800000000000400000000000100000000000)))))))))))
 (.node 16 (.node 8 (.node 4 (.node 2 (.node 1 (.leaf 600000000000200000000000400000000000600000000000600000000000800000000000600000000000600000000000400000000000800160000000800000000000900300000000600000000000200000000000400000000000100000000000700000000000200000000000222700000000600000000000700100000000200030000000500000000000600000000000800000000000400000000000400000000000600000000000400000000000600000000000800000000000700000000000610140100000400000000000400000000000400000000000612650100000400000000000600000000000700000000000600000000000900000000000800000000000700000000000800000000000900000000000600000000000400000000000400000000000601500621955621590100000418090000000800000000000701470621957900750000000600000000000900000000000400000000000400000000000200000000000302680621964600870000000400000000000113750000000)
 (.leaf 400000000000600000000000400000000000600000000000100000000000600000000000400000000000400000000000202060621935600000000000600000000000600000000000416610000000600000000000400000000000600000000000900000000000200000000000600000000000600000000000300000000000800000000000323890622009200000000000600000000000200000000000800000000000600000000000505680100000800000000000200000000000200000000000200000000000700000000000800000000000808490000000800000000000800000000000900000000000800000000000600160000000800000000000900300000000200000000000400000000000200000000000400000000000400000000000200000000000200000000000300000000000200030000000600000000000500000000000400000000000400000000000600000000000700000000000800000000000800000000000600000000000622020100000400000000000107580100000))
 (.node 1 (.leaf 400000000000322370100000700000000000400000000000600000000000400000000000400000000000600000000000600000000000700000000000800000000000200000000000605630100000418090000000900000000000900000000000600750000000600000000000600000000000418670000000400000000000212750000000200870000000206130621932400000000000200000000000800000000000413750621954700000000000200030100000600000000000200000000000400000000000700000000000120140621980600000000000211860000000610310000000318760611983216610000000400000000000600000000000600000000000900000000000600000000000200000000000600000000000500000000000200000000000200000000000600000000000200000000000900000000000700000000000200000000000500000000000600000000000400000000000900000000000608490100000600000000000900000000000800000000000800000000000)
 (.leaf 600160000000800000000000600300000000300000000000200000000000100000000000100000000000100000000000200000000000100000000000600000000000600000000000400000000000500000000000600000000000600000000000800000000000600000000000621710100000400000000000400000000000700000000000600780000000400000000000600000000000400000000000100000000000600000000000900000000000400000000000400000000000600000000000600000000000609290100000418090621960600000000000800750000000600000000000600000000000118670000000400000000000212750100000600870000000200630000000500000000000600000000000415040621954300000000000700000000000101160000000300000000000700000000000400000000000420140000000900000000000211860621952610310621969300000000000216610611971400000000000305870611969200000000000823510000000600000000000)))
 (.node 2 (.node 1 (.leaf 800000000000200000000000400000000000600000000000900000000000600000000000600000000000700000000000200000000000200000000000600000000000400000000000909880100000800000000000900000000000700000000000800000000000623210000000800160000000800300621959800000000000221340000000200000000000400000000000500000000000400000000000300000000000000000000000900000000000400000000000600000000000500000000000900000000000600000000000600000000000400000000000400000000000800000000000607210100000400000000000200000000000400000000000400000000000600000000000600000000000800000000000400000000000618080000000600000000000822180000000400000000000800000000000600750621972900000000000900000000000418670000000800000000000600870000000200000000000400630000000900000000000414470000000600000000000400000000000)
 (.leaf 400090000000600000000000800000000000500000000000400000000000300000000000300000000000620480611986400000000000500000000000205870000000400000000000323510000000600000000000400000000000200000000000100000000000200000000000600000000000200000000000600000000000800000000000100000000000600000000000800000000000400000000000600000000000800000000000400000000000800000000000600160000000823210000000900300000000600000000000221340000000100000000000400000000000411340611954600000000000600000000000400000000000700000000000600000000000700000000000609410100000900000000000800000000000800000000000600780000000700000000000600000000000800000000000400000000000800000000000600000000000800000000000400000000000922180100000618080000000800000000000900000000000200000000000900750000000605330000000))
 (.node 1 (.leaf 600000000000418670000000400000000000600870000000400630000000500000000000600000000000414470621971600000000000700000000000201160100000700000000000600000000000800000000000300000000000213660621938320480000000200000000000200000000000300000000000123510622012200000000000800000000000200000000000200000000000300000000000200000000000600000000000621150000000700000000000200000000000200000000000401050000000400000000000900000000000822730000000700000000000800000000000623210622015600160621979600000000000600000000000421340621983400000000000400000000000500000000000600000000000400000000000400000000000600000000000800000000000700000000000600000000000700000000000900000000000600780000000400000000000400000000000200000000000800000000000800000000000900000000000400000000000600590000000)
 (.leaf 800000000000800000000000618080000000600000000000400000000000605330621962600000000000718671421956800000000000200870621953400630000000600000000000414680000000200000000000400000000000600090000000400000000000600000000000600000000000600000000000400000000000200000000000200000000000600000000000300000000000224720622012600000000000500000000000200000000000600000000000200000000000100000000000300110000000921150000000600000000000200000000000600000000000801050000000600000000000822730000000800000000000400450000000900000000000900000000000600000000000000000000000221340000000400000000000400000000000600000000000100000000000900000000000600000000000600000000000800000000000400000000000600000000000600000000000300780100000400000000000400000000000600000000000800000000000600000000000))))
 (.node 4 (.node 2 (.node 1 (.leaf 600000000000907510000000700000000000600590000000618080000000800000000000400280000000600000000000300000000000718670000000400000000000600870000000200630000000600000000000414680621937700000000000600000000000600090000000700000000000300000000000600000000000200000000000200000000000300000000000200000000000200000000000300000000000624130000000200000000000200000000000200000000000600000000000200000000000600000000000800000000000100000000000801050000000300000000000922730000000600000000000700000000000800450000000900000000000600000000000600000000000218310621991800000000000200000000000200110000000600000000000400000000000600000000000600000000000600000000000800000000000700000000000600000000000900000000000400000000000600000000000700000000000300000000000900000000000600000000000)
 (.leaf 600000000000400000000000800590000000400000000000618080000000400280000000605650100000600000000000700340000000800000000000200000000000800000000000400630000000419840000000400000000000600000000000700000000000600000000000900000000000200000000000300000000000200000000000200000000000200000000000624130622015600000000000200000000000600000000000200000000000500000000000600110000000600000000000400000000000200000000000801050100000200000000000800000000000800450000000600000000000600000000000600370000000200000000000400000000000400000000000600090000000600000000000800000000000600000000000600000000000800000000000607160000000400000000000600000000000800000000000400000000000600000000000700000000000700000000000600000000000800000000000600000000000700000000000600590000000800000000000))
 (.node 1 (.leaf 618080000000400280000000600000000000800340000000600000000000400000000000200960000000400630621955819840000000400000000000600000000000400000000000900090000000200000000000914760611968100000000000600000000000200000000000400000000000304300621953924460622016300000000000100000000000600000000000300000000000600000000000800000000000200000000000800000000000600000000000800450621984800000000000622130000000600370000000400000000000100000000000200000000000600110000000600000000000400000000000900000000000600000000000600000000000607160000000400000000000803100000000900000000000400000000000600000000000800000000000400000000000900000000000600000000000800000000000400000000000600591421976800000000000618080621975622200000000800340000000300000000000800000000000400000000000400000000000)
 (.leaf 300960000000400000000000613700000000700000000000200000000000900000000000301520100000300000000000100000000000200000000000216050000000608330000000600000000000400000000000900000000000200000000000608650000000500000000000200000000000800000000000800000000000600000000000800000000000222130000000600370000000100000000000500000000000201580000000600090000000000110100000600000000000400000000000600000000000600000000000600000000000907160100000503100100000600000000000400000000000400000000000400000000000600000000000400000000000700000000000900000000000400000000000800000000000700000000000604930100000300000000000800340000000322200100000400000000000600000000000500000000000400000000000200960000000400000000000613700000000800000000000900000000000800000000000510990100000600000000000)))
 (.node 2 (.node 1 (.leaf 100000000000100000000000600000000000200000000000200000000000200000000000300000000000608650100000200000000000800000000000900000000000600000000000800000000000322130621986600370000000400000000000501580611940600090000000600000000000900000000000600000000000600000000000900000000000500000000000900000000000400000000000400000000000400000000000600000000000900000000000700000000000600000000000700000000000400000000000604720000000600000000000800340000000600260100000800000000000200000000000500000000000800000000000200960000000213700621972800000000000900090000000600000000000800000000000610940100000400000000000400000000000300000000000900000000000100000000000100000000000300000000000600000000000800000000000800000000000300000000000600000000000617950621994600370611974415650000000)
 (.leaf 600000000000500000000000500000000000600000000000600000000000600000000000200000000000700000000000400000000000500000000000600000000000400000000000600000000000700000000000400000000000604720100000600280000000800340000000600490000000400000000000300000000000421690100000400960000000215660621984800020000000600090000000600000000000800000000000622320000000100000000000400000000000600000000000500000000000224250622020300000000000300000000000800000000000400000000000600000000000600000000000800000000000300000000000300000000000415650621994500000000000600000000000500000000000600000000000400000000000500000000000400000000000600000000000400000000000400000000000600000000000800000000000600000000000200280000000700340000000600491421965400000000000200000000000100020000000300960000000))
 (.node 1 (.leaf 600000000000800090000000600000000000600000000000322320100000400000000000400000000000800000000000200000000000200000000000200000000000600000000000800000000000800000000000800000000000600000000000600000000000300000000000400000000000900020000000600000000000600000000000400000000000100000000000800000000000400000000000800000000000300000000000400000000000900000000000400340000000100280000000600100000000800000000000300000000000100020000000600960621966600000000000900090100000800000000000800000000000300000000000200000000000400000000000800000000000400000000000200000000000600000000000800000000000800000000000500000000000800000000000900000000000500000000000600000000000400000000000900020000000800000000000600000000000400000000000400000000000600000000000400000000000800080000000)
 (.leaf 600000000000400000000000900000000000400340000000200280000000400000000000200000000000306420621963600120000000600000000000800000000000602010100000500000000000100000000000624640000000200000000000300000000000200000000000200000000000800000000000800000000000600000000000900000000000200000000000400000000000900100000000000020100000600000000000600000000000400000000000400000000000600000000000400000000000200000000000400000000000600000000000700340621964200280000000700100100000800000000000600000000000204330000000600120000000600000000000600000000000000000000000824640000000200000000000400000000000900000000000200000000000600000000000600000000000400000000000600000000000600000000000300000000000200000000000400080000000600000000000900000000000400000000000400000000000600000000000)))))
 (.node 8 (.node 4 (.node 2 (.node 1 (.leaf 400000000000600000000000700000000000800000000000600820000000922720100000400000000000600280000000200000000000600000000000604330000000200000000000924640000000300000000000400000000000300000000000500000000000200000000000800000000000400000000000600000000000800000000000300000000000200000000000400080000000600120000000900000000000600000000000200000000000400000000000600000000000400000000000700000000000600000000000500000000000600820000000802240000000800000000000600280000000600000000000600120000000600000000000304330621954600000000000824640622014400000000000200000000000900000000000600000000000800000000000700000000000800000000000600000000000600000000000100000000000100080000000700000000000900000000000400000000000700000000000600000000000400000000000400000000000600000000000)
 (.leaf 800820000000621640100000400000000000300000000000600000000000600000000000600000000000800000000000624170622014400000000000210800000000600000000000300000000000800000000000700000000000600000000000800000000000200000000000200000000000400080000000900120000000400000000000600000000000100000000000400000000000600000000000700000000000900000000000800820000000602241421960400000000000400000000000300000000000600120000000800000000000610410621958600000000000624170000000100000000000110800621930600000000000800000000000600000000000400000000000600000000000900000000000500000000000400000000000400080000000400000000000600000000000400000000000400000000000600000000000400080000000400000000000600000000000600820000000821560100000800000000000400280000000600000000000900121421958600000000000))
 (.node 1 (.leaf 610410000000205880000000600000000000200000000000200000000000200000000000800000000000200000000000800000000000800000000000900000000000200000000000700000000000600000000000400000000000400000000000600000000000400080000000400000000000600000000000800820621977819630621960900000000000400280621955311320100000608470000000600000000000600000000000605880100000600000000000200000000000500000000000600000000000800000000000200910000000400000000000600000000000200000000000500000000000600000000000400000000000400000000000600000000000400080000000400000000000600000000000824440000000619630000000600000000000100890000000611320000000908470621958600000000000200000000000600000000000900000000000200000000000223460000000403420000000200910000000400000000000600000000000200000000000600000000000)
 (.leaf 400000000000400000000000600000000000400080000000800000000000800000000000424440000000622820721979600000000000200890000000200000000000605260100000800000000000200000000000600000000000900000000000200000000000200000000000803420000000200910621968400000000000300000000000200000000000600000000000400000000000400000000000600000000000400080100000400000000000600000000000424440000000622820000000800000000000400890000000200000000000810010000000600000000000300000000000300000000000620650000000300000000000200000000000803420000000618200621984100000000000600000000000400000000000800000000000400000000000400000000000600000000000404320100000400000000000600000000000424440000000618400000000800000000000100890621967600000000000610010100000800000000000200000000000600000000000620650000000)))
 (.node 2 (.node 1 (.leaf 300000000000600000000000803420000000200000000000400000000000206600100000213400100000500000000000100000000000700000000000611580000000403160100000400000000000600000000000424440000000700000000000618400621970400000000000600000000000800000000000600000000000300000000000200000000000820650000000500000000000200000000000803420611937600000000000400000000000609260100000400000000000400000000000400000000000611580100000400000000000400000000000600000000000124440000000400000000000900000000000400520000000600000000000603180000000606280100000200000000000215990621999620650000000600000000000600000000000600000000000400000000000200000000000200000000000400000000000400000000000900000000000400000000000400000000000600000000000424440000000400000000000600000000000100520000000600000000000)
 (.leaf 603180100000602650100000300000000000100000000000820650000000800000000000200000000000300000000000100000000000600000000000200000000000400000000000700000000000700000000000400000000000600000000000824440000000400000000000600000000000200520000000900000000000800000000000500000000000600000000000200000000000620650000000900000000000200000000000200000000000100000000000600000000000600000000000800000000000400000000000400000000000400000000000600000000000424440000000800000000000900000000000200520000000600000000000600000000000600000000000200000000000620650000000600000000000200000000000200000000000200000000000604240100000200000000000400000000000400000000000400000000000400000000000600000000000424440622013400000000000500000000000100520000000600000000000600000000000600000000000))
 (.node 1 (.leaf 200000000000920650000000800000000000200000000000200000000000200000000000600000000000600000000000400000000000400000000000800000000000400000000000600000000000200000000000400000000000100520000000600000000000500000000000600000000000100000000000620650000000800000000000200000000000200000000000100000000000600000000000300000000000400000000000400000000000400000000000400000000000600000000000400000000000400000000000200520000000900000000000200000000000200000000000620650000000800000000000200000000000200000000000101910100000612390000000600000000000400000000000400000000000400000000000400000000000900000000000400000000000400000000000600520621958600000000000600000000000300000000000220650000000800000000000200000000000100000000000400000000000612390100000200000000000100000000000)
 (.leaf 400000000000400000000000600000000000400000000000407510000000300000000000600000000000600000000000100000000000620650622003800000000000400000000000200000000000200000000000800000000000600000000000100000000000800000000000400000000000600000000000400000000000707510100000800000000000600000000000600000000000206340000000320660621986400000000000200000000000200000000000100000000000622970100000500000000000100000000000800000000000400000000000600000000000400000000000800000000000900000000000300000000000600000000000606340000000600000000000400000000000200000000000500000000000200000000000611050100000100000000000400000000000400000000000600000000000400000000000400000000000803770100000300000000000600000000000606340000000211100100000123740000000200000000000223310000000611510100000))))
 (.node 4 (.node 2 (.node 1 (.leaf 700000000000300000000000600000000000400000000000400000000000600000000000300000000000200000000000906340621960600000000000423740622009200000000000600000000000200000000000800000000000100000000000900000000000100000000000900000000000810760100000300000000000300000000000616000000000200000000000223740000000600000000000600000000000400000000000400000000000400000000000600000000000800000000000400000000000600000000000500000000000300000000000316000622002601680100000400000000000600000000000803850000000200000000000800000000000400000000000800000000000900000000000400000000000600000000000200000000000600000000000804660100000400000000000600000000000603850100000403740000000400000000000800000000000400000000000600000000000400000000000800000000000100000000000600000000000605290100000)
 (.leaf 800000000000500000000000802660000000103740100000400000000000800000000000400000000000800000000000400000000000600000000000200000000000600000000000815810621974400000000000602660100000400000000000400000000000400000000000400000000000800000000000400000000000600000000000100000000000600000000000600000000000800000000000306960000000100000000000700000000000800000000000700000000000423110000000400000000000900000000000100000000000800000000000810090100000800000000000822390100000200000000000400000000000400000000000400000000000723110100000800000000000603750000000600000000000200000000000600000000000600000000000606960100000400000000000700000000000400000000000800000000000400000000000400000000000804610100000800000000000100000000000200000000000800000000000807060100000400000000000))
 (.node 1 (.leaf 400000000000400000000000400000000000700000000000800000000000803750100000600000000000200000000000622500100000400000000000622170000000100000000000400000000000400000000000400000000000700000000000400000000000400000000000900000000000200000000000212090100000800000000000222170100000500000000000400000000000800000000000500000000000400000000000700000000000800000000000912280100000200000000000600000000000600000000000613010100000800000000000400000000000400000000000700000000000604580100000600000000000200000000000604080000000800000000000622440100000600000000000400000000000700000000000700000000000608980100000900000000000200000000000800620100000900000000000622730100000700000000000700000000000400000000000800000000000500000000000600000000000400000000000604080100000819370000000)
 (.leaf 908850100000400000000000400000000000812020100000900000000000800000000000200000000000822620100000619370000000600000000000400000000000400000000000600000000000400000000000600000000000600000000000607180000000819370000000600000000000800000000000800000000000800000000000400000000000500000000000200000000000607180100000619370000000900000000000400000000000400000000000800000000000800000000000800000000000605720100000619370000000600000000000400000000000800000000000800000000000400000000000601710100000205590100000819370000000600000000000400000000000800000000000700000000000800000000000800000000000600000000000819370000000800000000000400000000000400000000000900000000000400000000000900000000000606240100000819370611970600000000000400000000000800000000000800000000000800000000000)))
 (.node 1 (.leaf 600000000000300000000000800000000000800000000000400000000000400000000000600000000000400000000000600000000000500000000000800000000000900000000000400000000000800000000000900000000000400000000000300000000000800000000000500000000000800000000000800000000000600000000000800000000000600540100000800000000000400000000000800000000000600000000000900000000000500000000000400000000000600000000000800000000000600000000000800000000000400000000000800000000000800000000000600000000000800000000000800000000000800000000000900000000000600000000000800000000000400000000000500000000000600000000000500000000000800000000000800000000000800000000000400000000000400000000000600000000000700000000000800000000000900000000000400000000000800000000000600000000000900000000000800000000000600000000000)
 (.leaf 700000000000900000000000900000000000800000000000800000000000800000000000800000000000800000000000800000000000700000000000800000000000700000000000800000000000800000000000600000000000400000000000800000000000600000000000400000000000500000000000600000000000400000000000600000000000400000000000500000000000400000000000700000000000500000000000000000000000000000000000000000000000000000000000000000000000000000000000000000000000000000000000000000000000000000000000000000000000000000000000000000000000000000000000000000000000000000000000000000000000000000000000000000000000000000000000000000000000000000000000000000000000000000000000000000000000000000000000000000000000000000000000000000000000000000000000000000000000000000000000000000000000000000000000000000000000000000000000))))))

end WG
