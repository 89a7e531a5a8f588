import Verif.Model.DataTree

/-! Generated by `tools/gen_alloc.py`. -/

namespace WG

set_option maxRecDepth 100000

/-- For every row of the routing order the place of the list of its reservoirs in `serveTable` (4 digits); 64 rows to a leaf, the
first row in the leading digits. -/
def serveData : DTree :=
 (.node 1024 (.node 512 (.node 256 (.node 128 (.node 64 (.node 32 (.node 16 (.node 8 (.node 4 (.node 2 (.node 1 (.leaf 0)
 (.leaf 0))
 (.node 1 (.leaf 0)
 (.leaf 0)))
 (.node 2 (.node 1 (.leaf 0)
 (.leaf 0))
 (.node 1 (.leaf 0)
 (.leaf 0))))
 (.node 4 (.node 2 (.node 1 (.leaf 0)
 (.leaf 0))
 (.node 1 (.leaf 0)
 (.leaf 0)))
 (.node 2 (.node 1 (.leaf 0)
 (.leaf 0))
 (.node 1 (.leaf 0)
 (.leaf 0)))))
 (.node 8 (.node 4 (.node 2 (.node 1 (.leaf 0)
 (.leaf 0))
 (.node 1 (.leaf 0)
 (.leaf 0)))
 (.node 2 (.node 1 (.leaf 0)
 (.leaf 0))
 (.node 1 (.leaf 0)
 (.leaf 0))))
 (.node 4 (.node 2 (.node 1 (.leaf 0)
 (.leaf 0))
 (.node 1 (.leaf 0)
 (.leaf 0)))
 (.node 2 (.node 1 (.leaf 0)
 (.leaf 0))
 (.node 1 (.leaf 0)
 (.leaf 0))))))
 (.node 16 (.node 8 (.node 4 (.node 2 (.node 1 (.leaf 0)
 (.leaf 0))
 (.node 1 (.leaf 0)
 (.leaf 0)))
 (.node 2 (.node 1 (.leaf 0)
 (.leaf 0))
 (.node 1 (.leaf 0)
 (.leaf 0))))
 (.node 4 (.node 2 (.node 1 (.leaf 0)
 (.leaf 0))
 (.node 1 (.leaf 0)
 (.leaf 0)))
 (.node 2 (.node 1 (.leaf 0)
 (.leaf 0))
 (.node 1 (.leaf 0)
 (.leaf 0)))))
 (.node 8 (.node 4 (.node 2 (.node 1 (.leaf 0)
 (.leaf 0))
 (.node 1 (.leaf 0)
 (.leaf 0)))
 (.node 2 (.node 1 (.leaf 0)
 (.leaf 0))
 (.node 1 (.leaf 0)
 (.leaf 0))))
 (.node 4 (.node 2 (.node 1 (.leaf 0)
 (.leaf 0))
 (.node 1 (.leaf 0)
 (.leaf 0)))
 (.node 2 (.node 1 (.leaf 0)
 (.leaf 0))
 (.node 1 (.leaf 0)
 (.leaf 0)))))))
 (.node 32 (.node 16 (.node 8 (.node 4 (.node 2 (.node 1 (.leaf 0)
 (.leaf 0))
 (.node 1 (.leaf 0)
 (.leaf 0)))
 (.node 2 (.node 1 (.leaf 0)
 (.leaf 0))
 (.node 1 (.leaf 0)
 (.leaf 0))))
 (.node 4 (.node 2 (.node 1 (.leaf 0)
 (.leaf 0))
 (.node 1 (.leaf 0)
 (.leaf 0)))
 (.node 2 (.node 1 (.leaf 0)
 (.leaf 0))
 (.node 1 (.leaf 0)
 (.leaf 0)))))
 (.node 8 (.node 4 (.node 2 (.node 1 (.leaf 0)
 (.leaf 0))
 (.node 1 (.leaf 0)
 (.leaf 0)))
 (.node 2 (.node 1 (.leaf 0)
 (.leaf 0))
 (.node 1 (.leaf 0)
 (.leaf 0))))
 (.node 4 (.node 2 (.node 1 (.leaf 0)
 (.leaf 0))
 (.node 1 (.leaf 0)
 (.leaf 0)))
 (.node 2 (.node 1 (.leaf 0)
 (.leaf 0))
 (.node 1 (.leaf 0)
 (.leaf 0))))))
 (.node 16 (.node 8 (.node 4 (.node 2 (.node 1 (.leaf 0)
 (.leaf 0))
 (.node 1 (.leaf 0)
 (.leaf 0)))
 (.node 2 (.node 1 (.leaf 0)
 (.leaf 0))
 (.node 1 (.leaf 0)
 (.leaf 0))))
 (.node 4 (.node 2 (.node 1 (.leaf 0)
 (.leaf 0))
 (.node 1 (.leaf 0)
 (.leaf 0)))
 (.node 2 (.node 1 (.leaf 0)
 (.leaf 0))
 (.node 1 (.leaf 0)
 (.leaf 0)))))
 (.node 8 (.node 4 (.node 2 (.node 1 (.leaf 0)
 (.leaf 0))
 (.node 1 (.leaf 0)
 (.leaf 0)))
 (.node 2 (.node 1 (.leaf 0)
 (.leaf 0))
 (.node 1 (.leaf 0)
 (.leaf 0))))
 (.node 4 (.node 2 (.node 1 (.leaf 0)
 (.leaf 0))
 (.node 1 (.leaf 0)
 (.leaf 0)))
 (.node 2 (.node 1 (.leaf 0)
 (.leaf 0))
 (.node 1 (.leaf 0)
 (.leaf 0))))))))
 (.node 64 (.node 32 (.node 16 (.node 8 (.node 4 (.node 2 (.node 1 (.leaf 0)
 (.leaf 0))
 (.node 1 (.leaf 0)
 (.leaf 0)))
 (.node 2 (.node 1 (.leaf 0)
 (.leaf 0))
 (.node 1 (.leaf 0)
 (.leaf 0))))
 (.node 4 (.node 2 (.node 1 (.leaf 0)
 (.leaf 0))
 (.node 1 (.leaf 0)
 (.leaf 0)))
 (.node 2 (.node 1 (.leaf 0)
 (.leaf 0))
 (.node 1 (.leaf 0)
 (.leaf 0)))))
 (.node 8 (.node 4 (.node 2 (.node 1 (.leaf 0)
 (.leaf 0))
 (.node 1 (.leaf 0)
 (.leaf 0)))
 (.node 2 (.node 1 (.leaf 0)
 (.leaf 0))
 (.node 1 (.leaf 0)
 (.leaf 0))))
 (.node 4 (.node 2 (.node 1 (.leaf 0)
 (.leaf 0))
 (.node 1 (.leaf 0)
 (.leaf 0)))
 (.node 2 (.node 1 (.leaf 0)
 (.leaf 0))
 (.node 1 (.leaf 0)
 (.leaf 0))))))
 (.node 16 (.node 8 (.node 4 (.node 2 (.node 1 (.leaf 0)
 (.leaf 0))
 (.node 1 (.leaf 0)
 (.leaf 0)))
 (.node 2 (.node 1 (.leaf 0)
 (.leaf 0))
 (.node 1 (.leaf 0)
 (.leaf 0))))
 (.node 4 (.node 2 (.node 1 (.leaf 0)
 (.leaf 0))
 (.node 1 (.leaf 0)
 (.leaf 0)))
 (.node 2 (.node 1 (.leaf 0)
 (.leaf 0))
 (.node 1 (.leaf 0)
 (.leaf 0)))))
 (.node 8 (.node 4 (.node 2 (.node 1 (.leaf 0)
 (.leaf 0))
 (.node 1 (.leaf 0)
 (.leaf 0)))
 (.node 2 (.node 1 (.leaf 0)
 (.leaf 0))
 (.node 1 (.leaf 0)
 (.leaf 0))))
 (.node 4 (.node 2 (.node 1 (.leaf 0)
 (.leaf 0))
 (.node 1 (.leaf 0)
 (.leaf 0)))
 (.node 2 (.node 1 (.leaf 0)
 (.leaf 0))
 (.node 1 (.leaf 0)
 (.leaf 0)))))))
 (.node 32 (.node 16 (.node 8 (.node 4 (.node 2 (.node 1 (.leaf 0)
 (.leaf 0))
 (.node 1 (.leaf 0)
 (.leaf 0)))
 (.node 2 (.node 1 (.leaf 0)
 (.leaf 0))
 (.node 1 (.leaf 0)
 (.leaf 0))))
 (.node 4 (.node 2 (.node 1 (.leaf 0)
 (.leaf 0))
 (.node 1 (.leaf 0)
 (.leaf 0)))
 (.node 2 (.node 1 (.leaf 0)
 (.leaf 0))
 (.node 1 (.leaf 0)
 (.leaf 0)))))
 (.node 8 (.node 4 (.node 2 (.node 1 (.leaf 0)
 (.leaf 0))
 (.node 1 (.leaf 0)
 (.leaf 0)))
 (.node 2 (.node 1 (.leaf 0)
 (.leaf 0))
 (.node 1 (.leaf 0)
 (.leaf 0))))
 (.node 4 (.node 2 (.node 1 (.leaf 0)
 (.leaf 0))
 (.node 1 (.leaf 0)
 (.leaf 0)))
 (.node 2 (.node 1 (.leaf 0)
 (.leaf 0))
 (.node 1 (.leaf 0)
 (.leaf 0))))))
 (.node 16 (.node 8 (.node 4 (.node 2 (.node 1 (.leaf 0)
 (.leaf 0))
 (.node 1 (.leaf 0)
 (.leaf 0)))
 (.node 2 (.node 1 (.leaf 0)
 (.leaf 0))
 (.node 1 (.leaf 0)
 (.leaf 0))))
 (.node 4 (.node 2 (.node 1 (.leaf 0)
 (.leaf 0))
 (.node 1 (.leaf 0)
 (.leaf 0)))
 (.node 2 (.node 1 (.leaf 0)
 (.leaf 0))
 (.node 1 (.leaf 0)
 (.leaf 0)))))
 (.node 8 (.node 4 (.node 2 (.node 1 (.leaf 0)
 (.leaf 0))
 (.node 1 (.leaf 0)
 (.leaf 0)))
 (.node 2 (.node 1 (.leaf 0)
 (.leaf 0))
 (.node 1 (.leaf 0)
 (.leaf 0))))
 (.node 4 (.node 2 (.node 1 (.leaf 0)
 (.leaf 0))
 (.node 1 (.leaf 0)
 (.leaf 0)))
 (.node 2 (.node 1 (.leaf 0)
 (.leaf 0))
 (.node 1 (.leaf 0)
 (.leaf 0)))))))))
 (.node 128 (.node 64 (.node 32 (.node 16 (.node 8 (.node 4 (.node 2 (.node 1 (.leaf 0)
 (.leaf 0))
 (.node 1 (.leaf 0)
 (.leaf 0)))
 (.node 2 (.node 1 (.leaf 0)
 (.leaf 0))
 (.node 1 (.leaf 0)
 (.leaf 0))))
 (.node 4 (.node 2 (.node 1 (.leaf 0)
 (.leaf 0))
 (.node 1 (.leaf 0)
 (.leaf 0)))
 (.node 2 (.node 1 (.leaf 0)
 (.leaf 0))
 (.node 1 (.leaf 0)
 (.leaf 0)))))
 (.node 8 (.node 4 (.node 2 (.node 1 (.leaf 0)
 (.leaf 0))
 (.node 1 (.leaf 0)
 (.leaf 0)))
 (.node 2 (.node 1 (.leaf 0)
 (.leaf 0))
 (.node 1 (.leaf 0)
 (.leaf 0))))
 (.node 4 (.node 2 (.node 1 (.leaf 0)
 (.leaf 0))
 (.node 1 (.leaf 0)
 (.leaf 0)))
 (.node 2 (.node 1 (.leaf 0)
 (.leaf 0))
 (.node 1 (.leaf 0)
 (.leaf 0))))))
 (.node 16 (.node 8 (.node 4 (.node 2 (.node 1 (.leaf 0)
 (.leaf 0))
 (.node 1 (.leaf 0)
 (.leaf 0)))
 (.node 2 (.node 1 (.leaf 0)
 (.leaf 0))
 (.node 1 (.leaf 0)
 (.leaf 0))))
 (.node 4 (.node 2 (.node 1 (.leaf 0)
 (.leaf 0))
 (.node 1 (.leaf 0)
 (.leaf 0)))
 (.node 2 (.node 1 (.leaf 0)
 (.leaf 0))
 (.node 1 (.leaf 0)
 (.leaf 0)))))
 (.node 8 (.node 4 (.node 2 (.node 1 (.leaf 0)
 (.leaf 0))
 (.node 1 (.leaf 0)
 (.leaf 0)))
 (.node 2 (.node 1 (.leaf 0)
 (.leaf 0))
 (.node 1 (.leaf 0)
 (.leaf 0))))
 (.node 4 (.node 2 (.node 1 (.leaf 0)
 (.leaf 0))
 (.node 1 (.leaf 0)
 (.leaf 0)))
 (.node 2 (.node 1 (.leaf 0)
 (.leaf 0))
 (.node 1 (.leaf 0)
 (.leaf 0)))))))
 (.node 32 (.node 16 (.node 8 (.node 4 (.node 2 (.node 1 (.leaf 0)
 (.leaf 0))
 (.node 1 (.leaf 0)
 (.leaf 0)))
 (.node 2 (.node 1 (.leaf 0)
 (.leaf 0))
 (.node 1 (.leaf 0)
 (.leaf 0))))
 (.node 4 (.node 2 (.node 1 (.leaf 0)
 (.leaf 0))
 (.node 1 (.leaf 0)
 (.leaf 0)))
 (.node 2 (.node 1 (.leaf 0)
 (.leaf 0))
 (.node 1 (.leaf 0)
 (.leaf 0)))))
 (.node 8 (.node 4 (.node 2 (.node 1 (.leaf 0)
 (.leaf 0))
 (.node 1 (.leaf 0)
 (.leaf 0)))
 (.node 2 (.node 1 (.leaf 0)
 (.leaf 0))
 (.node 1 (.leaf 0)
 (.leaf 0))))
 (.node 4 (.node 2 (.node 1 (.leaf 0)
 (.leaf 0))
 (.node 1 (.leaf 0)
 (.leaf 0)))
 (.node 2 (.node 1 (.leaf 0)
 (.leaf 0))
 (.node 1 (.leaf 0)
 (.leaf 0))))))
 (.node 16 (.node 8 (.node 4 (.node 2 (.node 1 (.leaf 0)
 (.leaf 0))
 (.node 1 (.leaf 0)
 (.leaf 0)))
 (.node 2 (.node 1 (.leaf 0)
 (.leaf 0))
 (.node 1 (.leaf 0)
 (.leaf 0))))
 (.node 4 (.node 2 (.node 1 (.leaf 0)
 (.leaf 0))
 (.node 1 (.leaf 0)
 (.leaf 0)))
 (.node 2 (.node 1 (.leaf 0)
 (.leaf 0))
 (.node 1 (.leaf 0)
 (.leaf 0)))))
 (.node 8 (.node 4 (.node 2 (.node 1 (.leaf 0)
 (.leaf 0))
 (.node 1 (.leaf 0)
 (.leaf 0)))
 (.node 2 (.node 1 (.leaf 0)
 (.leaf 0))
 (.node 1 (.leaf 0)
 (.leaf 0))))
 (.node 4 (.node 2 (.node 1 (.leaf 0)
 (.leaf 0))
 (.node 1 (.leaf 0)
 (.leaf 0)))
 (.node 2 (.node 1 (.leaf 0)
 (.leaf 0))
 (.node 1 (.leaf 0)
 (.leaf 0))))))))
 (.node 64 (.node 32 (.node 16 (.node 8 (.node 4 (.node 2 (.node 1 (.leaf 0)
 (.leaf 0))
 (.node 1 (.leaf 0)
 (.leaf 0)))
 (.node 2 (.node 1 (.leaf 0)
 (.leaf 0))
 (.node 1 (.leaf 0)
 (.leaf 0))))
 (.node 4 (.node 2 (.node 1 (.leaf 0)
 (.leaf 0))
 (.node 1 (.leaf 0)
 (.leaf 0)))
 (.node 2 (.node 1 (.leaf 0)
 (.leaf 0))
 (.node 1 (.leaf 0)
 (.leaf 0)))))
 (.node 8 (.node 4 (.node 2 (.node 1 (.leaf 0)
 (.leaf 0))
 (.node 1 (.leaf 0)
 (.leaf 0)))
 (.node 2 (.node 1 (.leaf 0)
 (.leaf 0))
 (.node 1 (.leaf 0)
 (.leaf 0))))
 (.node 4 (.node 2 (.node 1 (.leaf 0)
 (.leaf 0))
 (.node 1 (.leaf 0)
 (.leaf 0)))
 (.node 2 (.node 1 (.leaf 0)
 (.leaf 0))
 (.node 1 (.leaf 0)
 (.leaf 0))))))
 (.node 16 (.node 8 (.node 4 (.node 2 (.node 1 (.leaf 0)
 (.leaf 0))
 (.node 1 (.leaf 0)
 (.leaf 0)))
 (.node 2 (.node 1 (.leaf 0)
 (.leaf 0))
 (.node 1 (.leaf 0)
 (.leaf 0))))
 (.node 4 (.node 2 (.node 1 (.leaf 0)
 (.leaf 0))
 (.node 1 (.leaf 0)
 (.leaf 0)))
 (.node 2 (.node 1 (.leaf 0)
 (.leaf 0))
 (.node 1 (.leaf 0)
 (.leaf 0)))))
 (.node 8 (.node 4 (.node 2 (.node 1 (.leaf 0)
 (.leaf 0))
 (.node 1 (.leaf 0)
 (.leaf 0)))
 (.node 2 (.node 1 (.leaf 0)
 (.leaf 0))
 (.node 1 (.leaf 0)
 (.leaf 0))))
 (.node 4 (.node 2 (.node 1 (.leaf 0)
 (.leaf 0))
 (.node 1 (.leaf 0)
 (.leaf 0)))
 (.node 2 (.node 1 (.leaf 0)
 (.leaf 0))
 (.node 1 (.leaf 0)
 (.leaf 0)))))))
 (.node 32 (.node 16 (.node 8 (.node 4 (.node 2 (.node 1 (.leaf 0)
 (.leaf 0))
 (.node 1 (.leaf 0)
 (.leaf 0)))
 (.node 2 (.node 1 (.leaf 0)
 (.leaf 0))
 (.node 1 (.leaf 0)
 (.leaf 0))))
 (.node 4 (.node 2 (.node 1 (.leaf 0)
 (.leaf 0))
 (.node 1 (.leaf 0)
 (.leaf 0)))
 (.node 2 (.node 1 (.leaf 0)
 (.leaf 0))
 (.node 1 (.leaf 0)
 (.leaf 0)))))
 (.node 8 (.node 4 (.node 2 (.node 1 (.leaf 0)
 (.leaf 0))
 (.node 1 (.leaf 0)
 (.leaf 0)))
 (.node 2 (.node 1 (.leaf 0)
 (.leaf 0))
 (.node 1 (.leaf 0)
 (.leaf 0))))
 (.node 4 (.node 2 (.node 1 (.leaf 0)
 (.leaf 0))
 (.node 1 (.leaf 0)
 (.leaf 0)))
 (.node 2 (.node 1 (.leaf 0)
 (.leaf 0))
 (.node 1 (.leaf 0)
 (.leaf 0))))))
 (.node 16 (.node 8 (.node 4 (.node 2 (.node 1 (.leaf 0)
 (.leaf 0))
 (.node 1 (.leaf 0)
 (.leaf 0)))
 (.node 2 (.node 1 (.leaf 0)
 (.leaf 0))
 (.node 1 (.leaf 0)
 (.leaf 0))))
 (.node 4 (.node 2 (.node 1 (.leaf 0)
 (.leaf 0))
 (.node 1 (.leaf 0)
 (.leaf 0)))
 (.node 2 (.node 1 (.leaf 0)
 (.leaf 0))
 (.node 1 (.leaf 0)
 (.leaf 0)))))
 (.node 8 (.node 4 (.node 2 (.node 1 (.leaf 0)
 (.leaf 0))
 (.node 1 (.leaf 0)
 (.leaf 2000000000000)))
 (.node 2 (.node 1 (.leaf 0)
 (.leaf 30000000000000000000000000000000000000000000000000000000000000000000000000000))
 (.node 1 (.leaf 0)
 (.leaf 0))))
 (.node 4 (.node 2 (.node 1 (.leaf 4000000000000000000000000000000000000000000000000)
 (.leaf 0))
 (.node 1 (.leaf 5000000000000000000000000000000000000000000000000000000000000000000000000000000000000000000000000000000000000000000000000000000000000000000000000000000000000)
 (.leaf 0)))
 (.node 2 (.node 1 (.leaf 0)
 (.leaf 700000000000000000000000000000000000000000000000000000000000000000000000000000000000000000000000000000000000000000000000000000000000000000000000000000000000000000000000000000000000000000000))
 (.node 1 (.leaf 8000000000000000000000000000000000000000000000000000000000000000000000000)
 (.leaf 0))))))))))
 (.node 256 (.node 128 (.node 64 (.node 32 (.node 16 (.node 8 (.node 4 (.node 2 (.node 1 (.leaf 0)
 (.leaf 90000000000000000000000000000000000000000000000000000000000000000000000000000000000000000))
 (.node 1 (.leaf 0)
 (.leaf 0)))
 (.node 2 (.node 1 (.leaf 0)
 (.leaf 110000000000000000000000000000000000000000000000000000000000000000000000000000000000000000000000000000))
 (.node 1 (.leaf 0)
 (.leaf 1500000000000000000000))))
 (.node 4 (.node 2 (.node 1 (.leaf 0)
 (.leaf 160014000000000000000000000000000000000000000000000000000000000000000000000000000000000000000000000000000000000000000000000000000000000000000000000000000000000000000000000000000000000000000000000000000000000000000000000000000000000000000000000000))
 (.node 1 (.leaf 1700000000000000000000)
 (.leaf 0)))
 (.node 2 (.node 1 (.leaf 0)
 (.leaf 0))
 (.node 1 (.leaf 0)
 (.leaf 0)))))
 (.node 8 (.node 4 (.node 2 (.node 1 (.leaf 0)
 (.leaf 19000000000000000000000000000000000000000000000000000000000000000000000000000000000000000000000000000000000000000000000000000000000000000000000000000000000000000000000000000000000000000000000000000000000000000000000000000000000000000000000000))
 (.node 1 (.leaf 0)
 (.leaf 0)))
 (.node 2 (.node 1 (.leaf 0)
 (.leaf 0))
 (.node 1 (.leaf 0)
 (.leaf 0))))
 (.node 4 (.node 2 (.node 1 (.leaf 0)
 (.leaf 0))
 (.node 1 (.leaf 0)
 (.leaf 0)))
 (.node 2 (.node 1 (.leaf 23000000000000000000200000000000000000000000000000000000000000000000000000000000000000000000000000000000000000000000000000000000000000000000000000)
 (.leaf 22000000000000000000000000000000000000000000000000))
 (.node 1 (.leaf 0)
 (.leaf 0))))))
 (.node 16 (.node 8 (.node 4 (.node 2 (.node 1 (.leaf 0)
 (.leaf 2400000000000000000000000000000000000000000000000000000000000000000000000000000000000000000000000000000000000000000000000000000000000000000000000000000000000000000000000000000000000000000000000000000000000000000000))
 (.node 1 (.leaf 0)
 (.leaf 27000000280000000000000000000000000000000000000000000000000000000000000030000000320000000000000000000000000000000000000000000000000000)))
 (.node 2 (.node 1 (.leaf 0)
 (.leaf 33000000000000000000000000))
 (.node 1 (.leaf 3400000000000000000000000000000000000000000000000000000000000000000000000000000000000000000000000000000000000000000000000000000000000000000000000000000000000000000000000000000000000000000000000000000000000000000000000000000000)
 (.leaf 0))))
 (.node 4 (.node 2 (.node 1 (.leaf 37000000000000000000000000000000000000000000000000000000000000000000000000000000000000000000000000000000000000000000000000000000000000000000000000000000000000000000000000000000000000000000400000000000000000)
 (.leaf 0))
 (.node 1 (.leaf 4400000000000000410000000000000000000000000000000000000000000000000000000000000000000000000000000000000000000000000000000000000000000000000000000000000000000000000000000000000000)
 (.leaf 4600000000000000000043000000000000000000000000000000000000000000510000000000000000004500000000000000000000000000000000000000000000000000000000000000000000000000000000000000000000000000000000000000000000000000000000000000000000000000000000000000000000)))
 (.node 2 (.node 1 (.leaf 4900000000000000000000000000000000000000000000000000000000005500000000000000000000000000000000000000000000000000000053000000000000000000000000000000000000000000000000000000000000000000000000000000000000)
 (.leaf 61000000000000000000000000000000000000000000000063000000000000000000000000006500000000000000000000000000000000000000000000000000000000000000000000000000000000000000000000))
 (.node 1 (.leaf 6700000000000000000000000000000060000000000000000000000000000000000000000000000000000000000000000000000000000000000000000000000000000000000000000000000000000000000000)
 (.leaf 7400000000000000000000008400780000007900000000000000000000)))))
 (.node 8 (.node 4 (.node 2 (.node 1 (.leaf 0)
 (.leaf 850000000000800000000000000000000000000000008600000000000000000000000000000000000000000000000000000000000000000000000000000000000000000000000000000000000000000000))
 (.node 1 (.leaf 8700000000000000000000000000000089000000000091000000000000000000000000000000000000000000920000000000000000000000000093000000000000000000000094000000000000000000000000000000000000)
 (.leaf 109000000000000000000000000000000000000000000000000000000000000000000000000000000000000000000000000000000000000000000000000000000000000000000000000000000000000)))
 (.node 2 (.node 1 (.leaf 9601040000000000000000000000000000000000000000000000000101000000000000000000000000000000000000010200000000000000000000000000000000000000000000000000000000000000000000000000000000000000000000000000000000000000000000000000000000000000000000)
 (.leaf 105000000000000000000000000000000000000000000000000000000000111000000000000000000000000000000000000000000000000000000000000000000000000000000000000000000000000000000000000000000000000000001120000000000000000000000000000000000000000000000000000000001310000))
 (.node 1 (.leaf 122000000000000000000000124000000000000000000000000000000000000000000000000000000000000000000000000000000000000000000000000000000000000000000000000000000000000000000000000000000000000000001350000000001130000000000000000000001170000000000000000)
 (.leaf 1270000000000000000000000000000000000000000000001300000000001400141000000000000000000000000000000000000000000000000))))
 (.node 4 (.node 2 (.node 1 (.leaf 142000000000000000000000000000000000148000001390000000000000000000000000000000000000000000000000000000000000146000000000000000000000000000000000000000000000000000000000000)
 (.leaf 153000000000000000000000000000000000000000000000000000000000000000000000000000000000000))
 (.node 1 (.leaf 14700000000000000000000000000000000000000000000000001550000000000000000000001520000000000000000000000000000000000000000000000000000000000000000000000000000000000000000000000000000000000000000000000000000)
 (.leaf 16100000000000001620000000000000000000000000000000000000000000000000000015800000000000000000000000000000000000000000000000000000000000000000000000000000000000000000000000000000000000000000000)))
 (.node 2 (.node 1 (.leaf 16501660000000000000000000000000000000000000000000000000000000000000000000000000000000000000000000000000000000000000000000000000000000000000000000000000000000000000000000000000000)
 (.leaf 171000001690000000000000000000000000000000000000000000000000000000000000000000000000000000000000000000000000000000000000000000001810000000000000000000000000000000000000172000000000000017500000000))
 (.node 1 (.leaf 182000000000000000000000000000000000183000000000000000000000000000000000000000000000000000000000000)
 (.leaf 18800000000000000000000000000000000000001890000000000000000000000000000000000000000000000000000)))))))
 (.node 32 (.node 16 (.node 8 (.node 4 (.node 2 (.node 1 (.leaf 1840191000000000000000000000000000000000000000000000199000000000000000000000000000000000000000000000000000000000000000000000000000000000000)
 (.leaf 2000196000000000000000000000000000000000000000000000000000000000000000000000000000000000000000000000000000000000000))
 (.node 1 (.leaf 2190000022100000000000000000000000000000000000000000000000000000000000000000000000000000000000000000000000000000000000000000000000000000000000000000000000000000000000000000000000000000000)
 (.leaf 2080000000000000000000000000000000000000000000000000000000000000000000000000000000000000000000000000000000000000000022300000000000000000000000000000000000000000000000000000000000000000000000000000000)))
 (.node 2 (.node 1 (.leaf 232023300000000000000000000000000000000000000000000000002280000000000000000000000000000000000000000000000000000000000000000000000000000000000000000000000000000000000000000000000000000000000000000000000000000000000000000000000000000000000000000)
 (.leaf 0))
 (.node 1 (.leaf 234000000000000000000000000000000000000000000000000000000000000000000000000000000000000000000000000000000000000000000000000000000000000)
 (.leaf 0))))
 (.node 4 (.node 2 (.node 1 (.leaf 24600000000000000000253000000000000000000000000000000000000000000000000000000000000000000000000000000000000000000000000000000000000000000000000000000000000)
 (.leaf 248025002560000025500000000000000000000000000000000000000000000000000000000000000000000000000000000000000000000000000000000000000000000000000000000000000000000000000000000000000000000000000000000000000000000000000000000))
 (.node 1 (.leaf 258000002610000000000000000000000000000000000000000000000000000000000000000)
 (.leaf 0)))
 (.node 2 (.node 1 (.leaf 266000000000000000000000000000000000000000000000000000000000000000000000000000000000000000000000000000000000000000000000000000000000000000000000000000000000000)
 (.leaf 26400000000000000000000000000000000000000000000000000000000000000000000000000000000000000000000000000000000000000000000000000000000000000000000000000000000000000000000000000000000000000000000000000000000000000000000000000000000))
 (.node 1 (.leaf 2720000000002730000000000000000000000000268000000000000000000000000000000000000000000000000000000000000)
 (.leaf 0)))))
 (.node 8 (.node 4 (.node 2 (.node 1 (.leaf 28000000000000000000000000000000000000000000000000000000000000000000000000000000000000000000000000000000000000000000000000000000000000000000000000000000000000000000000000000000000)
 (.leaf 28700000000000000000000000000000000000000000000000000000000000000000000000000000000000000000000000000000000000000000000000000000000000000000000000000000000000000000000000000000000000000000000000002880000000000000000))
 (.node 1 (.leaf 29002920000000000000000000000000000000000000000000000000000)
 (.leaf 0)))
 (.node 2 (.node 1 (.leaf 301000000000302000000000000000000000000000000000000000000000000000000000000)
 (.leaf 3100000000000000000000000000000030700000000000000000000000000000000))
 (.node 1 (.leaf 3080309000000000000000000000314031100000000000000000000000000000312000000000000000000000000000000000000000000000000000000000000000000000000000000000000000000000000000003130000)
 (.leaf 315000000000000000000000000000000000000000000000000))))
 (.node 4 (.node 2 (.node 1 (.leaf 317000000000000000000000000000000000000000000000000000000000000000000000000000000000000000000000000000000000000000000000000000000000000000000000000000000000318)
 (.leaf 3260327000000000000000000000000000000000000000000000000000000000000000000000000000000000000))
 (.node 1 (.leaf 325000000000000000000000000000000000000000000000000000000000000000000000000000000000000000000000000000000000000000000000000000000000328000000000000000000000000000000000000000000000000000000000000000000000000000000000000000000000000)
 (.leaf 33300000000000000000000000000000000000000000000000000000000000000000000000000000000000000000000000000000000000000000000000000000000000000000000000003350000000000000000000000000000000000000000000000000000)))
 (.node 2 (.node 1 (.leaf 340000000000000000003370000000000000000000000000000000000000000000000000000000000000000000000000000000000000000000000000000000000000000034200000000000000000000000000000000000000000000)
 (.leaf 343000000000000000000000000000000000000000000000000000000000000000000000000000000000000))
 (.node 1 (.leaf 3460000000000000000000000000000000000000000000000000000000000000000000000000000000000000000000000000000000003440000000000000000000000000000000000000000000000000000000000000000000000000000000000000000)
 (.leaf 350000000000000000000000000000000000000000000000000000000000000000000000000000000000000000000000000000000000000000000000000000000000000000000000000000000000000000000000000000000000000000000000000000000000000))))))
 (.node 16 (.node 8 (.node 4 (.node 2 (.node 1 (.leaf 3520000000000000000000000000000000000000000000000000000000000000000000000000000000000000000000000000000000000000000000000000000036100000000000000000000000000000000)
 (.leaf 357000000000000000000000000000000000000000000000000000000000000000000000000000000000000000000000000036200000000000000000000000000000000000000000359000000000000000000000000000000000000000000000000000000000000000000000000000000000000))
 (.node 1 (.leaf 364000003690000000000000000000000000000000000000000000000000000000000000000000000000000000000000000000000000000000000000000000000000000000000000000037000000000000000000000000000000000000000000366036800000000000000000000000000000000)
 (.leaf 3720000000000000000037303710000000000000000000000000000000000000000000000000000000000000000000000000000000000000000000000000000000000000000000000000374000000000000000000000000000000000000000000000000)))
 (.node 2 (.node 1 (.leaf 38103830000000003860000000000000000)
 (.leaf 382000000000000000000000000000000000000000000000000038400000387000000000000000000000000))
 (.node 1 (.leaf 3880000000000000000)
 (.leaf 0))))
 (.node 4 (.node 2 (.node 1 (.leaf 38900000000000000000000000000000000000000000000000000000000000000000000000000000000000000000000000000000000000000000000000000000000000000000000000000000000000000000000000000000000000000000000000000000000000000000000)
 (.leaf 39000000000000000000000000000000000000000000000000000000000000000000000000000000000000000000000000000000000000000000000000000000000))
 (.node 1 (.leaf 0)
 (.leaf 0)))
 (.node 2 (.node 1 (.leaf 0)
 (.leaf 0))
 (.node 1 (.leaf 393000000000000000000000000000000000000000000000000000000000000000000000000000000000000000000000000000000000000000000000000000000000000000000000000000000000000000000000000000000000000000000000000000000000000000000000000)
 (.leaf 3940000000000000000000000000000000000000000000000000000000000000000000000000000000000000000000000000000000000000000000000000000000000000000000000000000000000000000000000000000000000000000000000000000000000000000)))))
 (.node 8 (.node 4 (.node 2 (.node 1 (.leaf 3950000000000000000000000000000000000000000000000000000000000000000000000000000000000000000000000000000000000000000000000000396000000000000000000000000000000000000000000000000000000000000000000000000000000000000000000000000000003970000000000000000)
 (.leaf 0))
 (.node 1 (.leaf 0)
 (.leaf 3980000000000000000000000000000)))
 (.node 2 (.node 1 (.leaf 0)
 (.leaf 0))
 (.node 1 (.leaf 0)
 (.leaf 0))))
 (.node 4 (.node 2 (.node 1 (.leaf 3990000000000000000000000000000000000000402000000000000000000000000000000000000000000000000000000000000000000000000000000000000000000000000000000000000000000000000000000000000000000000000000000000400000000000000000000000000000000000000)
 (.leaf 0))
 (.node 1 (.leaf 0)
 (.leaf 0)))
 (.node 2 (.node 1 (.leaf 40300000000000000000000000000000000000000000000000000000000000000000000000000000000)
 (.leaf 40400000000000000000000000000000000000000000000000000000000000000000000000000000000000000000000000000000000000000000000000000000000000000000000000000000000000000000000000000000000000000000000000000000000000000000000000000000000))
 (.node 1 (.leaf 4060000000000000000000000000000000000000000000000000000000000000000000000000000000000000000000000000000000000000000000000000000)
 (.leaf 40800000000000000000000000000000000000000000000000000000000000000000000000000000000000000000000000000000000000000000000))))))))
 (.node 64 (.node 32 (.node 16 (.node 8 (.node 4 (.node 2 (.node 1 (.leaf 410040900000000000000000000000000000000000000000000000000000000000000000000000000000000000000000000000000000000000000000000000000000000000000000000000000000000000000000000000000000000000000000000000000000000000000000000000000000000000000000000000000000000)
 (.leaf 0))
 (.node 1 (.leaf 0)
 (.leaf 4130000000000000000000000000000000000000000000000000000000000000000000000000000)))
 (.node 2 (.node 1 (.leaf 414000000000000000000000000000000000000000000000000000000000000000000000000000000000000000000000000000000000000000000000000)
 (.leaf 41500000000000000000000000000000000000000000000000000000000000000000000000000000000041700000000000000000000000000000000000000000000000000000000000000000000000000000000000000000000))
 (.node 1 (.leaf 0)
 (.leaf 41900000000000000000000000000000000000000000000000000000000000000000000000000000000000000000000000000000000000000000000000000000000000000000000))))
 (.node 4 (.node 2 (.node 1 (.leaf 0)
 (.leaf 422000000000000000000000000000000000000))
 (.node 1 (.leaf 4230000000000000000000000000000000000000000000000000000000000000000000000000000000000000000000004240000000000000000000000000000000000000000000000000000)
 (.leaf 425000000000000000000000000000000000000000000000000000000000000000000000428042600000000042700000000000000000000000000000000000000000000000004290000000000000000000000000000043000000000000000000000000000000000000004310000000000000000)))
 (.node 2 (.node 1 (.leaf 0)
 (.leaf 0))
 (.node 1 (.leaf 0)
 (.leaf 0)))))
 (.node 8 (.node 4 (.node 2 (.node 1 (.leaf 0)
 (.leaf 0))
 (.node 1 (.leaf 0)
 (.leaf 0)))
 (.node 2 (.node 1 (.leaf 0)
 (.leaf 0))
 (.node 1 (.leaf 0)
 (.leaf 0))))
 (.node 4 (.node 2 (.node 1 (.leaf 1)
 (.leaf 4320000000000000000000000000000000000000000000000000000000000000000000000000000000000000000000000000000000000000000000000000000000000000000000000000000000000000000000000000000000000000000000000000000000000000000000000000000000000000000000000000000))
 (.node 1 (.leaf 0)
 (.leaf 0)))
 (.node 2 (.node 1 (.leaf 4000000000000000000000000000000000000000000000000000000000000000000000000000000000000)
 (.leaf 50000000000000000000000000000000000000000000000000000000000000000000000000000000000000000000000000000000000000000000000000000000000000000000000000000))
 (.node 1 (.leaf 600000000000000000000000000000000000000000000000000000000000000000000000000000000000000000000000000000000000000000000000000000000000000000000000000000000000000000000000000000000000000000000000000000000000000000000)
 (.leaf 4340000000000000000000000000000000000000000000000000000000000000000000000000000000000000000000000000000000000000000000000000000000000000000000000000000000000080007000000000000000000000000000000000000000000000000000000000000000000000000))))))
 (.node 16 (.node 8 (.node 4 (.node 2 (.node 1 (.leaf 0)
 (.leaf 43600000000000000000000000000000000000000000000000000000000000000000000000000000000000000000000000000000000000000000000000000000000000000000000000000000000000000000000000000000000000000000000000000000000))
 (.node 1 (.leaf 437000000000000000000000000000000000000)
 (.leaf 11000000000000000000000000000000000000000000000000000000000000000000000000000000000000000000000000)))
 (.node 2 (.node 1 (.leaf 1500000000000000000000000000000000000000000000000000000000)
 (.leaf 0))
 (.node 1 (.leaf 14000000000000000000000000000000000000000000000000000000000000000000000000000000000000000000000000000000000000000000000000000000000000000000000000000000000000000000000000000000000000000000000000000000000000000000000000000000000000000000000000000000000000)
 (.leaf 0))))
 (.node 4 (.node 2 (.node 1 (.leaf 0)
 (.leaf 19000000000000000000000000))
 (.node 1 (.leaf 0)
 (.leaf 440000000000000000000000000000000000000000000000000000000000000000000000000000000000000000000000000000000000000000000000000000000000000000000000000000000000000000000000000000000000000000000000000)))
 (.node 2 (.node 1 (.leaf 0)
 (.leaf 4410000000000000000000000000000000000000000000000000000000000000000000000000000000000000000000000000000000000000000))
 (.node 1 (.leaf 0)
 (.leaf 4420000000000000000000000000000000000000000000000000000000000000000000000000000000000000000000000000000000000000000044300000000000000000000000000000000000000000000000000000000000000000000000000000000000000000000000000000000)))))
 (.node 8 (.node 4 (.node 2 (.node 1 (.leaf 445000000000000000000000000000000000000000000000000000000000000000000000000000000000000000000000000000000000000000000000000000000000000000000000000000000000000000000000000000000000000000000000000)
 (.leaf 447000000000000000000000000000000000000000000000000000000000000000000000000000000000000))
 (.node 1 (.leaf 45200000000044900000000000000000000000000000000000000000000000000000000000000000000000000000000000000000000000000000000000000240450000000000451000000000000000000000000000000000000000000000000)
 (.leaf 45400000000000004530000000000000000000000000000000000000000000000000000000000000000000000000000000000000000000000000000000000000000000000000000000000000000000000300000)))
 (.node 2 (.node 1 (.leaf 2800000000045700000000000004590000000000000000000000000000045600000000000000000000000000000000000000000000)
 (.leaf 3300000000000000000000000000000000000000000000000000000000000000000000000000000000000000000000000000000000000000000000000000000000000000000000003500000000000000000000000000000000000000000000))
 (.node 1 (.leaf 464000000000000000000000000000000000036000000000000000000000000000000000000000000000000000000000000000000000000000000000000000000000000000000000040000000000000000000370000)
 (.leaf 38000000000000000000000000000000510000000000000000000000000000000000000000000000000000000000000000000000000000000000000000000000000466000000000000000000000000))))
 (.node 4 (.node 2 (.node 1 (.leaf 42000004680000000000000000000000000000000000000000000000000000000000000000000000000000000000000000000004690000000000000000004900430000000000000000047000000000000000540000006500000000000000000000000000000000000000000000000000000000)
 (.leaf 6000000000000000000000000000550000006300000000000000000000000000000000000000000000000000000000000000000000000000000000000000000000000000000000000000000000000000000000000000000000000000000000000000000000000000000000000000000000000000000000))
 (.node 1 (.leaf 473000000000071007800000000000000000000000000000000000000000000000000000477000000000000000000000000000000000000000004750000000000000000000004790000000000000000000000000000)
 (.leaf 870000008000000482000000000000000000000000000000000000000000000000000000000000000000000000000000000000000000000000000000890000000000000000000000860000009200000000000004800000009304830484000004870000)))
 (.node 2 (.node 1 (.leaf 1090000000000910000000000000000000004880000000000000000000000000000000000000486000000000000000000000000000000000000000000000000009600000097000000000000010200000000000000000493000000000000000000000000)
 (.leaf 496000000000000049900000000000000000000049104980000000000000000000000000000000000000000000000000000000000000000049400000000000000000000000000000000000000000000000001310000000000000000000000000000000000000503000000000000000000000000000000000000000000000000))
 (.node 1 (.leaf 5010000000000000000000000000000000000000117050200000000000000000000050000000000000000000000000000000000000000000000000000000000000001280142000000000000014001410000050500000000000000000000000000000000000000000000000000000000000000000000000005070000)
 (.leaf 504000000000000000000000000000000000000013600000151000000000153000005060000000000000000000000000000000000000000000000000000000000000000000000000000000000000000000000000511000001390000050900000146000000000000000000000000000000000000000000000000051000000000)))))))
 (.node 32 (.node 16 (.node 8 (.node 4 (.node 2 (.node 1 (.leaf 51200000000000005190000000000000000000000000000000000000000000005130000000000000155000000000514015200000000000000000000000000000000000000000000000000000000000000000000000000000000000000000517000000000000000000000000000000000000052100000000)
 (.leaf 52000000000000000000000000001670000000000000176000000000000000000000000000000000000000000000000000000000181000000000527000001740175000000000000000000000000000000000000000000000000000000000000))
 (.node 1 (.leaf 183000000000000000000000000000000000000000000000000000000000000000000000000000000000000019401870000000000000000000000000000000000000000000000000000000000000000000000000000000000000000000000000533000000000000000000000000)
 (.leaf 1880000053100000190000000000000000000000000000000000000053200000000000000000000000000000000000000000000000000000000000001990000000000000000000000000000000000000000000000000000000000000000053405350000022100000000000000000000000000000000000000000000)))
 (.node 2 (.node 1 (.leaf 536023300000000000000000000000000000000000000000000000000000000000000000000000002230000000000000000000000000000000005380000000000000000000000000000000000000000000000000000000000000000)
 (.leaf 2280000000000000000000000000000000000000000000000000000000005400000000000000000000000000000000000000000000002350000000000000000000000000000000000000000000000000000000000000000054200000000))
 (.node 1 (.leaf 5410000000000000000000000000000000005430000000000000000000000000000000000000000000000000000000000000000000002340000000000000000000000000000000000000000000000000000000000000000000000000000000000000000000000000000000000000000000000000000000000000000)
 (.leaf 2530000000000000000000000000000000000000000000000000000000000000000000000000000000000000000000000000000000000000246000000000256000000000000000000000000054600000000000000000000000000000000000000000000000000000000000000000000000000000000000000000000))))
 (.node 4 (.node 2 (.node 1 (.leaf 26100000000000000000000000000000000000000000000000000000000000000000000000000000000000000000000)
 (.leaf 5510550000000000000000000000000000000000000000000000000000000000000000000000000000000000000000000000266000000000000000000000000000000000000000000000000000000000000000000000000000000000000000000000000000000000000000000000000))
 (.node 1 (.leaf 264027100000000055400000000000000000000000000000000000000000000000000000000000000000000000000000000000000000000000000000000000000000000000000000000000000000000000000000000)
 (.leaf 27200000000000000000000000000000274000000000000026802780000000000000000000000000000000000000000000000000000000000000000000000000000000000000000000000000000000000000000000000000000000000000000055500000279028000000000)))
 (.node 2 (.node 1 (.leaf 28300000000000000000000000000000000000000000000000000000000000000000000000000000000000000000000000000000000000002880000000000000000000000000000000000000000000000000000000000000000000000000000000000000000000000000000000000000000000000000000000000000000)
 (.leaf 559000005600000029400000000000000000291029200000000000000000000000000000000000000000000000000000000000005640000056103020000000000000000000000000000000000000000000000000000000000000000000000000000000000000000))
 (.node 1 (.leaf 3100000000000000000000000000000000000000000000000000000000000000000000000000565030600000000000000000000000000000000000000000000000000000000000000000000000000000000000000000000030900000566000000000000000000000000000000000000)
 (.leaf 567000000000000000000000000000003120000000000000000000000000000000000000000000003130000000005700000000000000000057300000000000000000000000000000000000000000000000000000000000000000000000000000000000000000000031500000000)))))
 (.node 8 (.node 4 (.node 2 (.node 1 (.leaf 31700000000032700000000000000000000000000000000000000000000000000000000000000000318000000000000000000000575000000000000000000000000000000000000000000000000032500000000000000000000000000000000000000000000)
 (.leaf 3280000000000000336000000000000000000000000000000000000000000000000000000000000000000000000000000000000000000000000000000000000000000000000000000000000000003340000000000000000000000000000000000000000000000000000000000000000000000000000034100000000))
 (.node 1 (.leaf 578000000000000000000000000000000000000000000000000000000000000000000000000000000000000000000000000000000000000000000000000000000000000000000000000000000000000000000000000000000000346000000000000000000000000000000000000)
 (.leaf 58100000000000000000000000000000000000000000580000000000000000000000000058200000000000000000583000000000000000000000000000000000000000000000000000000000000000000000000000000000000000000000000000000000000000005840000000000000000)))
 (.node 2 (.node 1 (.leaf 585000000000000000000000000000000000000000000000000000000000000000000000000000000000000000000000000000000000000000000000000000000000000000000000365000000000000035705860000000000000000000000000000000000000000000000000000)
 (.leaf 364036900000000058703590000000000000000000000000000000000000000000000000000000003700000000000000000000003730000036800000000000000000000000000000000000000000000000003720000000000000000000000000000000000000000000000000000000000000000000000000000000000000000))
 (.node 1 (.leaf 383000003860000000000000000000000000000000000000000000000000000000000000000000000000000000000000000000000000000037900000000000000000000000000000000000000000000000000000000000005890000000000000000000000000000)
 (.leaf 38700000000000000000000000000000000000000000000000000000000000000000384058800000000000000000000000000000000000000000000000000000000000000000000000000000000000000000000000000000000000005900000000000000000000000000000000000000000))))
 (.node 4 (.node 2 (.node 1 (.leaf 591000000000000000000000000000000000000000000000000000000000000000000000000000000000000000000000000000000000000000000000000000000000000000000000000)
 (.leaf 390000000000000000000000000000000000000000000000000000000000000000000000000000000000000000000000000000000000000000000000000000000000000000000000000000000000000000000000000000000000000000000000000000000000000000000000000000000000000000000000000))
 (.node 1 (.leaf 391000000000000000000000000000000000000000000000000000000000000000000000000000000000000000000000000000000000000000000000000000000000000000000000000000000000000000000000000000000000000000000000000000000000000000000000000000000000000)
 (.leaf 3930000000000000000000000000000000000000000000000000000000000000000000000000000000000000000000000000000000000000000000000000000)))
 (.node 2 (.node 1 (.leaf 39400000000000000000000000000000000000000000000000000000000000000000000000000000000000000000000000000000000000000000000059300000000000000000000000000000000000000000000000000000000000000000000)
 (.leaf 5940000000000000000000000000397000000000000000000000000000000000000000000000000000000000000000000000000000000000000000000000000000000000000000000000000000000000000000000000000000000000000059600000000000000000000000000000000000000000000))
 (.node 1 (.leaf 0)
 (.leaf 39800000000000000000000000000000000000000000000000000000000000000000000000000000000000000000000000000000000000000000000000000000000000000000000000000000000000000000000000000000000000000000000000000000000000000000000000000000000000000000000))))))
 (.node 16 (.node 8 (.node 4 (.node 2 (.node 1 (.leaf 5970000000000000000000000000000000000000000000000000000000000000000000005980000000000000000000000000000000000000000000005990000000000000000000000000000000000000000000000000000000000000000000000000000000000000000)
 (.leaf 40200000000000000000000000000000000000000000000000000000000000000000000000000000000000000000000000000000000000000000000000000000000000000000000000000000000000000000000000000000000000000000000000000000000000000000000000000000000000000000000))
 (.node 1 (.leaf 0)
 (.leaf 0)))
 (.node 2 (.node 1 (.leaf 4040000000000000000000000000000000000000000000000000000040606000000000000000000000000000000000000000000000000000000000000000000000000000000)
 (.leaf 4080409000000000000000000000000000000000000000000000000000000000000041000000000000000000000))
 (.node 1 (.leaf 0)
 (.leaf 0))))
 (.node 4 (.node 2 (.node 1 (.leaf 41400000000000000000000000000000000060300000000000000000000000000000000000000000000000000000000000000000000000000000000000000000000000000000000)
 (.leaf 6050000000000000000000000000000041500000000000000000000000000000000000000000000000000000000000000000000000006060000000000000000000000000000000000000000000000000000000000000000))
 (.node 1 (.leaf 41900000000000000000000000000000000041800000000000000000000000000000000000000000000000000000000000000000000000000000000)
 (.leaf 60806070000000000000000000000000000000000000000000000000000000000000000000000000000000000000000000000000000060900000000000000000000000000000000000000000000000000000000000000000000000000000422)))
 (.node 2 (.node 1 (.leaf 61006120000000000000000000000000423000000000000000000000000000000000000000000000000000000000000000000000000061300000000000000000000000000000000042500000000000004280000000000000426000004270000000000000000000000000000000000000000)
 (.leaf 43000000000043100000000000000000000000000000000000000000000000000000000000000000000000000000000000000000000000000000000000000000000000000000000000000000000000000000000000000000000000000000000000000000000000000000000000000000000000000000000000000000000))
 (.node 1 (.leaf 0)
 (.leaf 0)))))
 (.node 8 (.node 4 (.node 2 (.node 1 (.leaf 0)
 (.leaf 0))
 (.node 1 (.leaf 0)
 (.leaf 0)))
 (.node 2 (.node 1 (.leaf 6140000000000000000000000000000000000000000000000000000000000000000000000000000000000000000)
 (.leaf 10000000000000000000000000000000000000000000000000000000000000000000000000000000000000000000000000000000000000000000000000000000000000000000000000000000004320000000000000000000000000000000000000000000000000000000000000000))
 (.node 1 (.leaf 615061600000000000000000000000000000000000000000000000000000000000000000000000000000000000000000000000000000000000000000000000000000004)
 (.leaf 0))))
 (.node 4 (.node 2 (.node 1 (.leaf 5000000000000000000000000000000000000000000000000000000000000000000000000000000000000000000000000000000000000000000060000000000000000000000000000000000000000000000000000000000000000000000000000000000000000000000000000000000000000)
 (.leaf 800000000000000000000000000000000000000000000000000000000000000000000000000000000000000000000000000000000000000000000))
 (.node 1 (.leaf 43600000000000000000000000000000000000000000000000000000000000000000000000000000000000000000000000000000000000000000000)
 (.leaf 43500000000000000000000000000000000000000000000000000000000000000000000000000000000000000000000000000000000000000000000000000000000000000000437061800000000000000000000000000000000000000000000000000000000000000000000000000000000000000000000000000000000)))
 (.node 2 (.node 1 (.leaf 11001300000000000000000000000000000000000000000000000000000000000000000000000000000000000000000000)
 (.leaf 150000000000000000000000000000000000000000000000000000000000000000000000000000000000000000000000000000000000000000000000000000000000000000000000000000000000000000000000000000000000000000000000000000000000000000000000000000000000000000))
 (.node 1 (.leaf 1400000000000000000000000000000000000000000000000000000000000000000000000000000000000000000000000000000000000000000000000000000000000000000000000000000000000000000000000000000000000000000000)
 (.leaf 61900000000000000000000000000000000000000000000000000000000000000000000000000000000000000000000000000000000000000000000000000000000000000000000000000000000000000000000)))))))))
 (.node 128 (.node 64 (.node 32 (.node 16 (.node 8 (.node 4 (.node 2 (.node 1 (.leaf 19000000000000000000000000000000000000000000000000000000000000000000000000000000000000000000000000000000000000000000000000000004400000000000000000000000000000000000000000)
 (.leaf 0))
 (.node 1 (.leaf 441000000000000000000000000000000000000000000000000000000000000000000000000)
 (.leaf 0)))
 (.node 2 (.node 1 (.leaf 445000000000448)
 (.leaf 620000000000000045200000000044700000000000000000000000000000000000000000000000000000000000000000000000000000000000000000000000000000000000000000621000004490000000000000000000000000000))
 (.node 1 (.leaf 4510000000000000000000006220000000000000000000000000000000000000000000000000000000000000000062500000000000000000000000000000000000000000000000000000000000000000623000000000000000000000000000000000000000000000000)
 (.leaf 4570000000000000000000000000456000000000000000000000000000000000000000000000000000000000000000000000028000000000000000000330000000000000000000000000000000000000000000000000000000000000000))))
 (.node 4 (.node 2 (.node 1 (.leaf 62800000000000000000000000000000000000000000000000000000000000000000000004000000000000000350000000000000000000000000000000000000000000000000000000000000000000000000000000000000000000000000051)
 (.leaf 36000000000000000000000000000000000000000000000000000000000000000000000000004600000000000000000000000000000000000000000000004900000000000000000000000000000042000004680000000000000000000000000000000000000000046900000000000000000000000000540065000006300000))
 (.node 1 (.leaf 6310000000000000060000000000000000000000000000000000000000000000000000000000000000000000000000006320000000000000000000000000000000000000000000000550471006300000000000000000000000000000000000000000000000000000000000000000000000000000000000000000000)
 (.leaf 4770000000000000000000000000473000000000078000000000000000000000000000000000000000000000087000000000000000004750000047900950000000000000635000000000000000000000000000000000000000000000000000000000480048406370000)))
 (.node 2 (.node 1 (.leaf 9100000000000000000000000000860000000004860000000000000000000000000000000000000097000000000000000000000103000000000000000000000000000000000096000000000499000001100498000004930000000000000000000000000000000000000494000000000000)
 (.leaf 64000000000063901230000049100000000000000000000000000000000000000000000000000000000011706410000000005000000000000000642000000000000000000000000000005010000012900000142000000000000000000000000000000000000000000000000000000000000000000000000050400000000))
 (.node 1 (.leaf 644000006450000014100000000064900000000000000000000000000000000000006470000013600000519000000000000000000000000000000000000000000000000013900000000000000000650000000000000000000000000000000000510000005130000065300000000000000000512015200000000000000000000)
 (.leaf 1590652000000000000051400000000000000000000000000000000000005170000052000000170052301760000000000000000000000000000000000000000000000000000000000000655000000000527017301680000000000000000000000000000065700000000017400000656000000000000000000000000)))))
 (.node 8 (.node 4 (.node 2 (.node 1 (.leaf 194000000000000000000000000000000000000000000000000000000000188000000000659000001900000000000000000053200000000000005330000000000000000018406600000000005310000000000000000000000000000000000000000)
 (.leaf 53400000000020701990000000000000000000000000000000002230000000000000000000000000000000005350000000000000000000000000000066100000000000000000000000000000000000000000000053600000000000000000000000000000000000000000000000000000000))
 (.node 1 (.leaf 66200000000000000000000000000000000000000000540000000000000000000000000000002390000000000000000000000000000000000000541000000000000000000000543000000000000000000000000000000000000000000000000000000000664000000000000000000000000)
 (.leaf 66300000000000000000234000000000000000002560000025400000000000000000000000000000000000000000000000000000000000000000000000000000000000000000665000000000546000000000000000000000000000000000000000000000000000000000246000000000000000000000000)))
 (.node 2 (.node 1 (.leaf 5470000000000000000000000000000000000000000000000000000055006660000000000000000000000000000000000000000000000000000000000000000000000000000000000000000000000000000000000000000000000000000000000000000)
 (.leaf 6690668000000000000000000000000000000000000000000000000000000000000000000000000000000000000000000000264027100000000000000000000000000000000067002740000067100000000000000000000000000000000000000000000))
 (.node 1 (.leaf 672000002780000000000000000000000000000000000000000000002800000000000000000000000000000000000000000000000000000055502790000000002860000000000000000000000000000000000000000000000000000000000000000000002880000000000000000000000000000000000000000)
 (.leaf 30200000000000000000000000000000000000000000000000000000000000000000000000000000000000000000000000006770000000000000000000000000000056100000000000000000000000000000000000000000000067405650000000000000000000000000000000000000000000000000000))))
 (.node 4 (.node 2 (.node 1 (.leaf 30903060678000000000000000000000000000000000000056705660000056900000000000000000000000000000000000000000570000000000681000000000000000000000000000000000000000000000000000000000000032700000000000000000000000000000000000000000000000000000000)
 (.leaf 317000006830000000000000575000000000000000000000000000000000000000000000000068400000685000000000000000000000000000000000000000000000000000000000000000000000000000006860000000000000000000000000000034100000576000000000000000000000000000005780338))
 (.node 1 (.leaf 687000000000000000000000000000000000000000006880000000000000000000000000000000000000000000000000000000000000000034600000000000000000000000000000000000000000000000000000581000000000000000000000000034900000000000000000000034800000000000000000000000000000000)
 (.leaf 58200000000000000000000000000000584000000000000000000000000000000000000000000000000000000000000000000000000000000000000000005870000000000000000000000000000069005860000000000000000000000000000000000000000)))
 (.node 2 (.node 1 (.leaf 3700372000000000000036600000000000000000000000000000000000000000000000000000000000000000000000000000000000000000000000000000000000000000000000000000000000000000691000000000692000000000000000000000000000000000000)
 (.leaf 379000000000000000000000000000000000000000000000000000000000000000000000000058800000000000000000384000005900000000000000000000000000000000006940000000000000000000000000000000000000000000000000000000000000000000000000000059100000000))
 (.node 1 (.leaf 390000000000000000000000000000000000000000000000000000000000000000000000000000000000000000000000000000000000000000000000000000000000000000000000000000000000000000000000695)
 (.leaf 39100000000000000000000000000000000000000000000000000000000000000000000000000000000000000000000000000000000000000000000000000000696000000000000000000000000000000000000))))))
 (.node 16 (.node 8 (.node 4 (.node 2 (.node 1 (.leaf 3930000000000000000000000000000000000000000000000000000000000000000000000000000000000000000000000000000069800000000000000000000000000000000000000000000000000000000000000000000000000000000000000000000000000000000000000000000000000000000000000000000)
 (.leaf 69900000000000000000000000000000000000000000000000000000000000000000000000000000397000000000000000000000000070000000000000000000000000000000000000000000000000000000000000000000000000000000000000007010000000000000000000000000000000000000000))
 (.node 1 (.leaf 70200000000000000000000000000000000000000000000000000000000000000000000000000000000000000000000000000000000039800000000000000000000000000000000000000000000000000000000000000000000)
 (.leaf 597000000000000000000000000000000000000000000000000000000000000059800000000000000000000000000000000059900000000000000000000000000000000000000000000)))
 (.node 2 (.node 1 (.leaf 40100000704000000000000000000000000000000000000000000000000000000000000000000000000000000000000000000000000000000000000000000000000000000000000000000000000000000000000000000000000)
 (.leaf 0))
 (.node 1 (.leaf 40600000600000000000000070500000000000000000000000000000000000000000000000000000000000000000000000000000000000000000000000000000000000000000000000000000000040800000000000000000000000000000000000000000000070600000000000000000000000000000000000000000000)
 (.leaf 0))))
 (.node 4 (.node 2 (.node 1 (.leaf 4140707000000000000000000000000060300000000000000000708000000000000000000000000000000000000000000000000000000000000000000000000000000000000000000000000000000000000000000000000000000000000)
 (.leaf 6050000000000000000070900000000000000000416000000000000060600000000000000000000000000000000000000000000000000000000000000000000000000000000000000000000000000000000000000000000000000000000000004190000000000000710041800000000000000000000))
 (.node 1 (.leaf 608000000000000000000000000000000000000000000000000000000000000000000000000000000000000000006090000000000000000000000000711000000000000000000000610000004220612000000000000000000000000000000000000000000000000000000000000)
 (.leaf 4270000000007120000000004300000000000000000000000000000000000000000000000000000000000000000000000000000000000000000000000000000000000000000000000000000000000000000000000000000000000000000000000000000000000000000000000000000000000000000)))
 (.node 2 (.node 1 (.leaf 0)
 (.leaf 0))
 (.node 1 (.leaf 0)
 (.leaf 71300000000)))))
 (.node 8 (.node 4 (.node 2 (.node 1 (.leaf 6140000000000000000000000000000000000000000000000000000)
 (.leaf 7140000000000000000000000000000000000000000000000000000000000000000000000000000000000000000000000000615000000000000000000000000000000000000000000000000000000000000000000000000))
 (.node 1 (.leaf 6160000000000000000000000000000000000000000000000000000000000000000000000000000000000000000000000000000000000000000000000000000000000000715071600000000000000000000000000000000000000000000000000000000000000000000000000000000000000000005000000000000)
 (.leaf 60717000000000000000000000000000000000000000000000000000000000000000000000000)))
 (.node 2 (.node 1 (.leaf 43600000000000000000000000000000000000000000000000000000000)
 (.leaf 435000000000000000000000000000000000000000000000000000000000000000000000000000000000000000000000000000000000618071900000000000000000000000000000000000000000000000000000000000000000000000004370000000000000000000000000000000000000000000000000000))
 (.node 1 (.leaf 1200000000000000000000000000000000000000000000000000000000000000000015000000000000000000000000000000000000000000000000000000000000)
 (.leaf 0))))
 (.node 4 (.node 2 (.node 1 (.leaf 190000000000000000000000000000000000000000)
 (.leaf 44000000000000000000000000000000000000000000000000000000000000000000000072000000000000000000000000000000000000000000000000000000000000000000000000000000000000000000000000000000000000000000000000000000000000000000000))
 (.node 1 (.leaf 441000000000000000000000000000000000721000000000000000000000000000000000000000000000000000000000000000000000000000000000000000000000000000000000000000000000000000000000000000000000000)
 (.leaf 72207240000)))
 (.node 2 (.node 1 (.leaf 44800000000000000000000000000000000000000000000000000000000045200000000000000000000000000000000000000000000000006200000062100000449000000000000000000000000000000000000000000000000000000000000000000000000000007250000000000000000000000000000000000000000)
 (.leaf 451000000000000000000000000000000000000045500000000000000000000000000000000000000000000000007260623000000000000000000000000000000000000000007270000000000000000000004570000000000000000000000000000000000000000000000000000))
 (.node 1 (.leaf 2806260000000000000456000000000000000000000000000000000000004000000628000000000000000000000000000000000000000000000000000000000000000000000000000000000000000000000051000000000000000000000000000000000000000000470000)
 (.leaf 728003500000000000000000000000000000000000000000000000000000000003604680000000000000000000000000000000000490730073100000000000000000000000006310000000000000000000000000630000000000000000000000000073200000000000000000000000000000000000000000000)))))))
 (.node 32 (.node 16 (.node 8 (.node 4 (.node 2 (.node 1 (.leaf 4710064000000000066000000000000000000000000000000000000063200000000000000000056000000000000000000000000000000000000000000000000000000000000000000780000073300000000000004780088000000000000047300000095000006350000000000000000000000000475)
 (.leaf 6370481000000000091000000000000048004860000000000000000000000000000000007360000010300000000000000000000000000000000000000000000000000000000011000000498000004930000000000000000000004940000000000000135000001230000000000000000000000000000000000000000))
 (.node 1 (.leaf 64000000117064101250000000000000000000000000000000001290133000001450000000006490000000000000000000000000501064400000739064501500000000000000000000000000000014401360000000005190000000000000000000000000000000000000513000000000000000006500000000000000000)
 (.leaf 159015407410000015200000000051600000652000006530000000000000512017707420000000000000000000001700514000000000000000000000000000000000000000000000655000000000000000000000000000000000000000006570000017301680000000000000000000000000000017407440656000000000000)))
 (.node 2 (.node 1 (.leaf 53200000000000000000000000000000191000001980000000000000000000000000203000001880000000000000000000000000000000000000000000000000533074700000000000000000000000000000531000000000000000000000000000000000000022300000000000000000535000000000000020500000000)
 (.leaf 74900000000000006610000000000000000000000000000000000000000000000000000066200000000000000000000054000000000000000000750000000000000000000000000000000000000000000000000000000000000000000000000000000000000000000000000000000000000))
 (.node 1 (.leaf 663000000000000000000000000000000000254075100000000000000000000000000000000000000000000023400000000000000000000000000000000000000000000000000000000075206650000054600000000000000000000000000000246000005480000000000000000000000000000000000000000000000000667)
 (.leaf 265066607530000000000000000000000000000000000000000000000000000000000000000000000000000000000000000000000000000000000000000000000000000075400000669000000000671000000000264000000000000000000000000))))
 (.node 4 (.node 2 (.node 1 (.leaf 670027400000278000000000000000000000000000007570000067202820000000000000000000000000279000000000000000000000000000003020000000002840563000000000000000000000000000002890000000000000000000000000000000000000000000000000677000000000000000000000000)
 (.leaf 565000000000000000000000000075803090000000000000000000000000000000000000000030605660569000000000000000000000000000005670327068200000000000000000316076100000762000000000000000000000000000000000000076300000000))
 (.node 1 (.leaf 31700000000000000000000032400000000000000000000000000000000000000000000000000000000000000000000034100000000000000000686000000000000000000000578000000000000000000000000057600000000000000000000000003380687000000000000000000000000000000000000)
 (.leaf 5810000000000000000000000000000000000000000000000000000000003490000000000000348000000000000000000000000000000000000034500000000000000000000000000000582000000000000000000000000000005840000000005870000000000000000000000000000000000000000000000000000)))
 (.node 2 (.node 1 (.leaf 690000000000000000000000000000003720000000000000000000000000000000003660000000000000765000000000370000000000000000000000000000000000000000000000000000000000000000000000000000000000000000000000000000000000000000007660000000000000000000000000000069100000000)
 (.leaf 693000000000000000000000588000003800000000000000000000005900000000000000000000000000000000000000000000000000384000000000000000000000591000000000000000000000000000000000000000000000000000000000000000007680000000000000000000000000000000000000000000000000000))
 (.node 1 (.leaf 6950000000000000000000000000000000000000000000000000000000000000000000000000000076900000000000000000000039100000000000000000000000000000000000000000393000000000696)
 (.leaf 770000005920698000000000000000000000000000000000000000000000000000000000000000000000000000007720000000000000000000000000000000006990000)))))
 (.node 8 (.node 4 (.node 2 (.node 1 (.leaf 3970000000000000700000000000000000000000000000000000000000000000000000000000000000000000000000000000000000000000000000000000000077307010000000000000000000000000000000000000000000000000000000000000702000000000000000000000775000000000000000000000000)
 (.leaf 3980000000000000000000000000000000000000000000000000000000000000000000000000000000000000000000000000000000000000000000000000000000005970000000000000000059800000000000000000000000000000399))
 (.node 1 (.leaf 599000000000000000000000000000000000000000000000704000000000000000000000000000000000000000000000000000000000000000000000000000000000000000000000776000000000000000000000000000000000000000000000000000000000000000000000000000000000000000000000000000004030000)
 (.leaf 60000000000000000000000000000000000040500000000000000000000000000000000000000000000000000000778000000000000000000000000000000000000000000000000000000000000000000000000000000000000000000000000)))
 (.node 2 (.node 1 (.leaf 414070700000000000000000000)
 (.leaf 605000000000000000000000000070904160000000000000000000000000000000000000000000000000000000000000000000000000000000000000000000000000000))
 (.node 1 (.leaf 7100000041900000000041800000000000000000000000000000608000000000000000000000000000000000609000000000000000000000000000006100711000006120000000004220000000000000000000000000613000000000000071200000000043000000000000000000000000000000000000000000000)
 (.leaf 0))))
 (.node 4 (.node 2 (.node 1 (.leaf 0)
 (.leaf 0))
 (.node 1 (.leaf 779000000000000000000000000000000000000000000000000000000000000000000000000000000000000000000000000000000000000000000000000000000000713000000000000000000000000000000000000000000000000000000000000000000000000000000000000000000000000000000000000000000000000)
 (.leaf 78000000000061400000000000000000000000000000000000000000000000000000000000000000000000000000000000000000000078200000000000000000000000000000000000000000000000000000000000000000000000000000000000000000000000000000000000000000000000000000000000000000000)))
 (.node 2 (.node 1 (.leaf 7160616000000000000000000000000000000000000000000000000000000000000000000050433000000000000000000000000000000000000000000000000000000000000000000000000000000000000)
 (.leaf 434000000000000000000000000000000000000000000000000000000000000078307170000000000000000000000000000000000000000000000000000000000000000000000000000000000000000000000000000000000000436000000000000000000000000))
 (.node 1 (.leaf 43507190000000000000000000000000000000000000000000000000000000000000000000000000000000004370000000000000000000000000000000000000000000000000000)
 (.leaf 1500000000000000000000000000000000000000000000000000000000000000000000000000000000000000000000000000000000000000000000))))))
 (.node 16 (.node 8 (.node 4 (.node 2 (.node 1 (.leaf 78400000000000000000000000000000000000000000000001900000000000000000000000000000000000000000000000000000000)
 (.leaf 4400000000000000000000000000000000000000000000000000000000000000000000000000000078600000000000000000000000000000000000000000000044100000000000000000000000000000000000000000000000000000000000000000000000000000000000007870000000000000721000000000000))
 (.node 1 (.leaf 4480000000000000000)
 (.leaf 45200000000000000000000000000000000000000000000000004460000000000000000000000000000000000000000000006200621000000000000000000000000000000000000000000000000000000000000078900000000000000000000000000000000000000000000000000000000)))
 (.node 2 (.node 1 (.leaf 79000000000000000000000000000000451079200000000000000000000000000000000000007260000000000000000000000000000000000000727000000000000062300000000000000000000000000000793000000000000000000000626004000000000000000000000000000000000000006280000000000000000)
 (.leaf 4560000000000000000000000000047079400000000072804630000000000000000000000000000000000000000000000000000000000000000000000000000073100000000000000350000000000000000000007300000079600000631000000000000000000000000073200000798000000000471000000000000))
 (.node 1 (.leaf 63200000000000008010000000000000064080000790804000000000000000000000088000000000000005600000803000000000083007800000000000000000478080500000000000000000481000008100475048000000000000000000000080600000091073600000103000000000000000000000000000000000000)
 (.leaf 49808110493000000000000000004940812000001160000000000000000000001340117012306410125000000000000000006440000064001450816064900000000000000000000081300000501073908170815051900000000000000000000050800000000014900000000000000000000000008180144051800000650))))
 (.node 4 (.node 2 (.node 1 (.leaf 821000006530000000001520000074200000000081900000516017800000000051201770000000000000000000000000000082201700515000000000000065700000000017308230000000000000000000000000168000000000532000000000000000001910000017400000656000000000000)
 (.leaf 1970659000000000000000000000000000005330000000000000000000000000000000000000000000000000000000000000825053100000000000000000000000000000000000002230000082705350000000000000000000000000000000000000000000008290749066100000000000000000000000006620000))
 (.node 1 (.leaf 5400000000000000000075000000828000000000000000000000751083000000663000000000000083100000000000000000000000000000000000000000000000000000000000000000000000000000000083200000000000000000000000000000667000000000000000008330000000000000000000000000000)
 (.leaf 7530000000000000000000000000839000000000000083508380000000000000000083700000000000000000000075400000840000000000000000002770669000000000000084206700671000002780000000000000000000000000274000002820000000000000000)))
 (.node 2 (.node 1 (.leaf 7570000067200000000000000000000030302790563000000000000000000000000000000000000000000000000028900000677000000000000000000000000000000000000000000000000000005620304000000000000000000000000000007580309056900000000000003060000000000000000000000000000)
 (.leaf 316000007620000000000000000000000000000000000000324000000000000000000000000000000000000000000000000000000000578000000000000000006860000000000000000000000000000000000000000000008440577000000000000000000000338058100000000))
 (.node 1 (.leaf 348000000000000034900000000000000000000000000000000000003530345084600000000000000000582000000000000076400000363000000000000000000000367000000000372000000000000000000000000000000000000000000000000000000000765000000000000000000000000)
 (.leaf 5900588000006930000000008480000000000000000000000000000000000000000000000000000000000000000000000000000000000000000000000000000000007680000000000000000000000000000000000000000000000000000000000000000)))))
 (.node 8 (.node 4 (.node 2 (.node 1 (.leaf 6950000000000000000000000000000000000000000000000000000000000000000000000000000000000000769000000000000000000000000000000000000000006960000000000000000000000000000000000000000000000000592000000000000000000000000)
 (.leaf 6980000000000000000077200000000000000000000000000000699000000000000000000000000000000000000070000000000000000000000000000000000000000000000000000000000000000000000000000000000000000000000000000000000070200000000000007750000000000000000))
 (.node 1 (.leaf 398000000000000000000000000000000000000000000000000000000000000000000000849000000000000000000000000000000000597000000000000000003990000000000000000059907040000000000000000000000000000)
 (.leaf 8500000000000000000000000000000000000000000000000000000000000000000000000000000000000000000000000000000000000000000000000000000000000000000000000000000000000000000000000000000000000000000000000000000000000000000000000000000000000000778)))
 (.node 2 (.node 1 (.leaf 851000000000000000000000000000000000000000000000852000000000000000000000000000000000000000000000000000000000000000000000000000000000000000004120000000000000601000000000000000000000000000000000000000000000000000007070000000000000000000000000000)
 (.leaf 8530000000000000000000000000000000000000000000000000000000000000000000000000000000000000000000000000709000004160000000000000000000000000000000000000000000000000000071000000000000004190000000004180000000006080000000000000000000000000000085400000000))
 (.node 1 (.leaf 711000000000612000000000000061300000000000000000000000000000000000000000000000000000000000000000000000000000000000000000000000000000000000000000000000000000000000000000000000000000000000000000000000000000000000000000000000000000000000000000000)
 (.leaf 0))))
 (.node 4 (.node 2 (.node 1 (.leaf 0)
 (.leaf 713000000000000000000000000000000000000000007800000061400000000000000000000000000000000000000000000000000000000000000000000000000000000000008550000000000000000000000000000000000000000000000000000000000000000))
 (.node 1 (.leaf 616000000000000000000000000000000000000000000000000000000000000000008560716000000000000000000000000000000000000000000000000000000000000000000000434000000000000)
 (.leaf 78300000000000000000000000000000000000006170000000000000000000000000000000000000000000000000000000000000000000000000000000000000000000004360000000000000000000000000000000000000000000000000000)))
 (.node 2 (.node 1 (.leaf 7190000000000000000000000000000000004350857000000000000000000000000000000000000000000000000000000000000000000000000000000000000000004370000000000000000000000000000000000000000085800000000000000000000000000000000000000000000000000000000)
 (.leaf 78400000000000000000000000000000000000000000000000000000000000000000000000000000000000000000000000000000000))
 (.node 1 (.leaf 440000000000000000000000000000000000000000000000000000000000000000000000786000000000000000000000000000004410000000000000000000000000000000000000000000000000000078700000000000000000000000000000000000000000000000000000000000000000000000000000000)
 (.leaf 85900000000000000000000000000000000000000000000000000000000044800000000000000000000000000000000000000000000086000000452000000000000000000000000000000000000000000000000000000000000000000000000000006210000000000000000000000000446))))))))
 (.node 64 (.node 32 (.node 16 (.node 8 (.node 4 (.node 2 (.node 1 (.leaf 861000000000000000000000000000006200000000000000000000000000000000000000000000008620000000000000000000007260000079208630000000000000727000000000000000008640000000000000000079300000000000000000000062300000000000000000000000000000000000000000000000004640865)
 (.leaf 34000004560000000000000000000000000000000000000463000000000000000000000000000000000000073100000000000000000000000000000000000000000000000000000036000006310729073200620796000000000798000000000000000000000632000008010472007900730000000000000000000000000000))
 (.node 1 (.leaf 8670000000000000083047600000000000000000868000008100805048004810000000000000000049900000000000000000000000000000000081100000493000000000812000001160000000000000869012006410649000000000000000000000644000000000817012500000000081307390000081600000000)
 (.leaf 50100000870000000000000000008180000013800000000082100000871065000000000000000000000000000000000000005160000065305120177000000000000000000000000000000000000000000000872000000000000000000000000065701730000087300000874000006560000000005320876000001930000)))
 (.node 2 (.node 1 (.leaf 174087506590000000000000000000000000000019700000000000005330000000000000878000000000000000000000000000000000000000000000535082505310000000000000000082708290661000000000000000007490000054000000000000000000000066200000000000000000000075000000000000006630000)
 (.leaf 88002600879088200000000000000000000000000000000000006670883088100000000000008330000000008840553000000000000000000000839000000000753000000000000000000000885000007540000000000000840000000000000000000000000000006710000))
 (.node 1 (.leaf 84200000277066900000000000000000000028100000278000000000000000000000563000000000000000000000000000000000000000000000564000000000000000006770000000002970000000000000000000007590000000000000000000007580304000000000000088700000000000008860305000000000000)
 (.leaf 3160888000000000000076200000000000000000000000000000000000000000889032400000000000000000000000000000891000000000000000000000000084400000000000000000000000000000581034800000000000000000000000000000000000000000353000000000000))))
 (.node 4 (.node 2 (.node 1 (.leaf 84603630582076400000000000000000000000003670000000000000000000000000000000000000000000000000000089200000000000000000000076500000590058800000000000000000000000008480000000006930000000000000000000000000000000000000000000000000000000000000000000000000000)
 (.leaf 768000000000000000000000000000000000000000000000000000000000000000006950000000000000000000000000000000000000000000000000000000000000000000000000000000000000769000000000000000000000000000000000000000000000696000000000000000000000000000000000000))
 (.node 1 (.leaf 771069800000000000000000000000000000000000000000000000000000000000000000700000000000000000000000000000000000000000000000000000000000000000000000000000000000702000007750000000000000000000000000000000000000000000000000000000000000000000000000000000000000000)
 (.leaf 84900000000000000000000000000000000000005970000000000000399070400000000000000000599000000000000000000000777000000000000000000000000000000000000000000000000000004030000000000000000000000000000000000000000000004060893)))
 (.node 2 (.node 1 (.leaf 778000000000000085100000000000000000000000000000852000000000000000000000000000000000000000000000000000000000894000000000601000000000000000008950000000007070000000000000896000000000604000000000000)
 (.leaf 85300000000000000000000000000000000000000000000000007090000000000000000000000000000000004170710089700000000000000000000000000000000000000000608000000000000000000000000000000000421000007110000000000000000000000000000000000000000000000000000))
 (.node 1 (.leaf 789000007280000000000000000000000000000000000000000000000000000000000000000000000000000000000000000000000000000000000000000000000000000000000000000000000000000000000000000000000000000000000000000000000000000000000000000000000000000000000000000000000000000)
 (.leaf 0)))))
 (.node 8 (.node 4 (.node 2 (.node 1 (.leaf 713000000000000000000000000000000000000000000000780000000000000000000000000000000000000000000000000000000000614000000000000000000000000000000000000000000000000000000000000000000000000000000000000)
 (.leaf 8560716061600000000000000000000000000000000000000000000000000000899000004340000000000000000000000000000000000000000000000000000000007830000000000000000000000000000000006170000))
 (.node 1 (.leaf 719000000000000000000000000000000000000000000000857000000000000000000000000000000000000000000000000000000000000000000000000000000000000000000000000000000000000)
 (.leaf 8580000000000000000000000000000000000000000000000000000000000000000000000000000000000000000000000000000000000000000078400000000000000000000000000000000000000000000000000000000000000000000000000000000000000000000000000000000000000000000)))
 (.node 2 (.node 1 (.leaf 7860000000000000000000000000000000000000000000000000000000000000000000000000000000000000900000000000000000000000000000000000000000000000000000000000000000000000000000000000000000000000000000000000000000000000000000000000000000000000000)
 (.leaf 4480000000000000901000000000000000000000860000000000000000000000000000009020621000000000000000000000000000000000000000000000000000000000000044600000000000000000000000000000000000000000862062000000000000000000726000000000000000007270903086300000000))
 (.node 1 (.leaf 7930000000000000864000000000000062300000000000000000000000004640000003400000000000000000731046300000000000000000000000000000000000000000000000000000000000000000631000000000000000007290000000007960799000000000000000000700000000006330000008104820000)
 (.leaf 904000000790073000000000000090500000000000000000000000000820868000008100805000000000000000000000000000004970000048100000499000001160000081100000000000008120906000000000000012100000000000000000644000000000907000000000000000008130000015700000000000000000160))))
 (.node 4 (.node 2 (.node 1 (.leaf 87009080871013700000909000000000158000000000000000000000000000000000000065300000000091000000872000000000657091109120000087300000000091306540000074500000000000008240192091400000000000000000875065900000000000000000000000000000000000000000000000008780000)
 (.leaf 6610000000000000236091500000000000000000000000000000000066200000663000000000750091600000000000002600000000000000000000000000883000000000000000000000000055200000000000000000000000008330000000002670881075300000000000000000000000008850000))
 (.node 1 (.leaf 755000000000000000000000000000000000000000000000000000000000000000008420000027700000000029300000000000002750917000000000000091800000000000000000564000000000000000000000000029800000000000006750000000000000000000000000680000000000920000000000000)
 (.leaf 760000000000888000000000000092107620000000000000000057900000324000000000891000009220000000000000000084400000000034700000923000000000000000000000924035100000000000000000356084600000764000000000000000000000360000000000000000000000000)))
 (.node 2 (.node 1 (.leaf 9260000000000000000089200000000000000000000084800000000000000000000000000000693000000000000000000000000000000000000000000000000000007680000000000000000000000000000000000000000000000000000000000000000000000000695000000000000000000000000)
 (.leaf 7690000000000000000000000000000000000000000000000000000069600000000077100000000092700000698000000000000000000000000000000000000000000000000000000000000000000000000000000000000000000000000000000000000000000000775000000000000000000000000000000000000))
 (.node 1 (.leaf 849000000000000000000000000000009280000000003990704000000000000000000000000000000000929000000000000000000000000000000000000000000000000000000000000000008930000000000000000000000000000)
 (.leaf 40500000000000009300778000000000000000000000000085200000000000000000000000000000000000000000000000000000000000008940000000000000000000000000601000000000000089600000000000000000000000000000000000000000000000008530000000000000000000000000000000000000605))))))
 (.node 16 (.node 8 (.node 4 (.node 2 (.node 1 (.leaf 709000000000000000000000000000000000710000008970000000000000000000000000000000000000000000004210000000006110000000009320000000000000000000000000000000000000000000000000000000000000000000000000000000000000000000000000000000000000000000000000000000000000000)
 (.leaf 0))
 (.node 1 (.leaf 93300000000000000000000000000000000000000000000000000000000000000000000000000000713000000000000000000000000000000000000000000000000000000000000000000000000078100000000000000000000000000000000000000000000000000000000000000000000)
 (.leaf 85607160000000000000000000000000899000000000000000000000000000000000000078300000000000000000000000000000000000000000000)))
 (.node 2 (.node 1 (.leaf 1000000000000000000000000000000000000000000000000000000000000000000000071900000000000000000000000000000000000009340857000000000000000000000000000000000000000000000000000000000000000000000000000000000000000000000000000000000000000000000000085800000000)
 (.leaf 93500000000000000000000000000000000000000000000000000000000000000000786000000000936000000000000))
 (.node 1 (.leaf 900000000000000000000000000000000000000000000000000000000000000000000000000000000000000000000000000000000000000000000000000000000000000000000000000000000000000090100000000093700000860000000000000000000000000000009380000090200000000000007230000000000000000)
 (.leaf 86200000939078800000000000000000000000000000726000000000940094100000000000007270793000000000903000000000000046000000000046400000000000000000000086400000000000000000000000000340463000000000942000000000000000000000000000000000000000000000943))))
 (.node 4 (.node 2 (.node 1 (.leaf 729000007960000000007990944000009450000008000000070063300000482007200000000000000000904007908680073073509050000000000920947000000000000010900820946000001080000000000000000000001180000049200000000000000000000000009480121000000000000090700000950000001600157)
 (.leaf 949081300000871000000000000090801430951000000000000000001580000081900000000000000000872000000000952000009530912000000000000091300000658000008730000000000000000074500000000000000000000000000000000000000000000000000000000095408260000000000000000091500000000))
 (.node 1 (.leaf 95500000260000000000000075009560252000000000000000002630000000000000000000000000000000007530000000000000000083408850000000000000000000007550000000000000000000000000000000000000000000000000000000009600277000000000000000000000000056409180000)
 (.leaf 961000000000000000000000299000000000000067606800000000000000000000000000920000000000000096200000760000000000888000000000000088900000323084409220000096300000964092300000000000000000000000000000924035503510000000008460000000000000764000000000359000000000000)))
 (.node 2 (.node 1 (.leaf 92600000000096600000892000003850000000000000000000000000000000007670000000000000000000000000000000007680000000000000000000000000000000000000000000000000000000000000000000000000000000000000000000000000000000000000000000000000592)
 (.leaf 7710000000000000000000000000000000000000000000000000000000000000000000000000000000000000000000009670000000000000000000000000000070300000000000000000000000000000000000000000000000000000000000000000000000000000000000000000000000000000000000000000928))
 (.node 1 (.leaf 929000000000000000000000000000000000000000000000000000000000000000000000000000000000000000000000000040500000000077800000000000000000000000000000000085200000000000000000000000000000000000000000000089400000000000000000000)
 (.leaf 8960000096800000000000000000000000000000853000000000000000000000000000000000000060500000000000000000000000008970000000000000000000004210000000006100000093200000000000000000000000000000000000000000000000000000000000000000000000000000000000000000000)))))
 (.node 8 (.node 4 (.node 2 (.node 1 (.leaf 933)
 (.leaf 781000009690000000000000000000000000000000000000000000000000000000000000000000000000000000000000970))
 (.node 1 (.leaf 856000000000000000008990000000000000000000000000000000000000000000000000000078300000000000000000000000000000000000000100000000000000000000000000000000000000000000000000000000000000857000000000000000000000000)
 (.leaf 93400000000000000000000000000000000000000000000000000000000000000000000000000000000000000000000000000000000000000000000000000000000000000000000000000000000000000000000000000000000000000000000000000000935000000000000000000000000000000000000000000000900)))
 (.node 2 (.node 1 (.leaf 78600000000093600000000000000000000000000000000097100000000000000000000000000000000000000000000000000000000000000000000000000000000000000000000000000000000090100000000086000000000000009370000000000000000000000000000000000000000086200000000000000000000)
 (.leaf 9390000000000000000000000000000097200000000094009030000000000000000079300000000000006240000003300000000000000000000000000000974097308640000000004630000094200000000000000000000003400000943000009750000000007290000079909440000094500000000007006340072))
 (.node 1 (.leaf 868000000000000090400000000073500900976094700000000000000920946000009770082000000000000010700000000011804920978000009790000000009480980000001210000095000000000090700000160000000000949000000000908000000000000081900000000051700000526000000000000091302020658)
 (.leaf 873000000000000000000000000098107450000000000000211000009820000000000000229000000000000000000000000000000000259025200000000000000000000026200000000000000000000000000000000083400000000000000000756000000000983000000000000000000000000000000000000))))
 (.node 4 (.node 2 (.node 1 (.leaf 98402760000096009610000098500000918000000000000000000000000067900000000000000000920000000000000000000000000000000000000000000000000000008890330000008440000096409230000096300000000000000000354000009240351000007640000000000000846000000000000000003590000)
 (.leaf 377000000000000000000000966089200000000000000000380000000000000000000000000000000000000000000000000000000000000000000000000000000000000000000000000000000000000059200000000039200000000000000000000000000000000000000000000000000000000))
 (.node 1 (.leaf 9670000000000000000000000000000000000000000000009860000000000000000000000000000000000000000000000000000000000000987092900000000000000000000000000000000000000000988000000000000000000000000000009890000000000000000000000000000)
 (.leaf 70500000000000009900000000000000000000008520000000000000000000000000000099100000000089400000000000000000968000008960000000000000000000000000853000000000000000000000000000000000000000000000000099200000000000000000993000004210000000000000000000000000000)))
 (.node 2 (.node 1 (.leaf 0)
 (.leaf 995000000000000000009330000000000000000000000000000000009960000000000000000000000000000000000000000000000000000000000000000000000000000000000000000000000000898096900000000000000000000000000000000000000000000000000000000000000000000))
 (.node 1 (.leaf 9700000000000000000000000000000000000000000000000000000000000000856000000000000000007180000000000000000000000000000000000000000000000000000000000100000000000000000000000000000000000000000000000000000000008570000000000000000000000000000000000000000)
 (.leaf 9340000000000000000000000000000099700000000000000000000000000000000000000000000000000000000000000000000000000000000000009350000000000000000000000000000000000000000000000000000000000000000000009000000000000000936000000000000097100000000)))))))
 (.node 32 (.node 16 (.node 8 (.node 4 (.node 2 (.node 1 (.leaf 999000000000000000000000000000000000000000000000860100000000901000000000000000000000000000000000000000000000000002100000000000000000000093900000000000000000000000010020000000009720000000000000903000000000000000000000000094000330000)
 (.leaf 62400000000000004650000000009730000000007280000000009420000000000001004046700000000000010050729000007990944000009450000000000000076000000721006000000000947000000000000009009760000000000000092100700000000097707380118000000000000010601100000000009480979))
 (.node 1 (.leaf 950000000000000011900000000101009491011000000000164081900000516090800000000051705260195000000000201000000000000000010130000000010120873000000000000074500000000021100000000098200000000000000000000000000000000000002520000101400000000024900000000000000000234)
 (.leaf 83900000000000000000756000008360000000000000000000000000000055600000000000009600000101509850000091800000000000000000000092000000000000010160000000000000000000000000000000000000921000000000331000000000964092300000963000000000000035400000351000009240000)))
 (.node 2 (.node 1 (.leaf 361096500000000000000000000035700000000000003750000000000000000101800000966089200000000038000000000000000000000000000000000000000000000000000000000000000000000000000000000059200000000000000000000000000000000000000000000000000000000000005950000000000000000)
 (.leaf 96700000000000000000000000000000000000009860000000000000000000000000000000000000000000009870000092900000000000000000000000000000000000000000000000000000989000000001020000000000000000000000000000000000000000000000000000000000000000000000000000009910000))
 (.node 1 (.leaf 894000000000000000009680000089600000000000000000000000000000000000000000000099200000000000000000897000004200000000000001021093100000000000000000000000000000000000000000000000000000000000000000000000000000000000000000000000000000000000000000000)
 (.leaf 996000000000000000000000000000000000000000000000000000000000000000000000000000000000969000000000000000000000000))))
 (.node 4 (.node 2 (.node 1 (.leaf 898000000000000000000000000000000000970000000000000000000000000000000000000000000000000000000000000000000000000071800000000000000000000000000000000000000000009000000000000000000000000000000000000000000000000000000000000000000000000000000000000)
 (.leaf 9970000000000000000102200000000000000000000000000000000102300000000000000000935000000000000000000000000000010240000000000000000000000000000090000000000093600000971102500000000000000000000000000000000000000000000))
 (.node 1 (.leaf 100000000901000000000000000000000000000000000000000000000000102600000000093900000000100200000000000010280000000000000000000007910451000000000000000000000940000000000000000009740624072800000000097300001004000000000942046700001005)
 (.leaf 42063000000799094400000945000000000076000000000000000000000000102909761030100709470000009010310000000009770116103300000000000009500979000010340000000000001010000000000651051600000908016300000517052500000000000010350220000000001036103710121013000000001038)))
 (.node 2 (.node 1 (.leaf 211000000000000000000000000103900000251000002481014000000000000000000000000000000000000000008360000000000000000000000000000000005561040000000000000101509180673000000000000000000001016000000000000000000000000000000000000092100000329096400000000)
 (.leaf 923000009630000000000000354000009250000036100000924000000000965000000000000035800000375000000000000000010180000096600000000000003820000000000000000000000000000000000000000000000000000000000000000000000000000000000000000000000000000000005950000000000000000))
 (.node 1 (.leaf 967000000000000000000000000000009860000000000000000000000000000000000000000000010410929000000000000000000000000000000001042000000000989040700000000000000000000000000000000000000000000000000000000000000000000000000000000000009680000000000000000000000000000)
 (.leaf 99200000000000000000000089700000000000000001021093100000000000000000000000000000000000000000000000000000000000000000000000000000000000000000000000000000000000000000000000000000000000000000000000000000000000000000000000000000000000000000000000000000000)))))
 (.node 8 (.node 4 (.node 2 (.node 1 (.leaf 9690000000000000000000000000000000000000000000000000000000000000000000000000000000000000000000000000000000000000000000007170000000000000000000010450000)
 (.leaf 1046000000000000000000000000000000000000000000000000099700000000000000000000000000001022000000000000104700000000000000000000000010230000093500000000000000000000000000000000000000001024000000000000000000000000000000000971000010250000))
 (.node 1 (.leaf 104800000000000000000000000000000000100000000000000000000000000000000000093900000000000010270000000000000000102800260000000000000000079000000000000000001049000009400000097406240000000000001004000000000000100500000000004209440945000000000077)
 (.leaf 100710500000000010511030103100000947000010290000000000000000000009500116105210330979000000001010000000000000000009490000016300000000000000000000000005250000053700000000101310361037000000000000000000000000021100001053000002570000000000000244000000000000)))
 (.node 2 (.node 1 (.leaf 8360000000000000000000010400556105400000285067300000000000003000000105500000000000000000000000008900964000008430329000000000000000009630000000000000000036100000000000009650000000003580376000000000000000000000000000000000000)
 (.leaf 595000000000000000000000967000000000000000000000000105609860000000000000000000000000000000000000000000000001041000000001057000000000000000000000000104200000000000000000000000000000000))
 (.node 1 (.leaf 105809680000000000000000000000000000000000000000000000001021093100000000000007890000000000000000000000000000000000000000000000000000000000000000000000000000000000000000000000000000000000000000000000000000000000000000000000000000)
 (.leaf 96900000000000000000000000000000000000000000000000000000000000000000000000000000000000000000000000000000000000000000000104500000000000000000000000000000000))))
 (.node 4 (.node 2 (.node 1 (.leaf 1046000000000000000009970000000000000000000000000000000000000000000000000000000000000000104700000000000000000000000010230000000000000000000000000000000000000000000000001024000000000000106000000971000000000000102500000000104800000000000000000000000000000000)
 (.leaf 100000000000000000001001000000000000000000000000000010030000000010280026000000000000000007900000000000001049000009740000000000000000100400000468100500000000000000000000000000000077106110071050000000001031000000000000000004850737063800000503049900000000))
 (.node 1 (.leaf 97910520000101000001062000000000000000000000000000000000000000005241063000001861036106410131065103700001066000000000000000005450000000002430000000000000000000000000000000000000000000000000000000000000671000000000000028500000000000003000000000000000000)
 (.leaf 33200000000000000000000000000000000000000000361000000000000000009650000037800000000000000000000000000000000000000000000000000000000000000000000000000000000000000000000000005950000000000000000000000000000000000000000000000001056000000000000)))
 (.node 2 (.node 1 (.leaf 59800000000104100000000105700000000000000000000106700000000000000000000000000000000000000000000000000001058000010680000000000000000000000000000102109310000000007890000000000000000000000000000000000000000000000000000000000000000000000000000)
 (.leaf 1045000000000000000000000000000000001046))
 (.node 1 (.leaf 1023000000000000000000000000000000001024000000000000000000000000106000000000000000000000104800000000102500000000000000000000000010000000000000000000000000001001)
 (.leaf 1003000000000026000007900000000000000000104900000000106900000468100500000000000004690000000000750000000006360000000000001032000000000737063804850000050304950000000010700132000010620740000010710000000000000000107200000000000000001063))))))
 (.node 16 (.node 8 (.node 4 (.node 2 (.node 1 (.leaf 1036074801860206101300001066000000000000000002370000024200000000000000000000000000000000000000001074000000000000000000000000000005570000000000000571000000001075000010760000000000000000089100000000000000000847000009650000000000000000000000000000000010770000)
 (.leaf 10190000000000000000000000000000000000000000107810560000000000000000000000000000059800000000000000001057000000000000000010670000000000000000000000000000000000000000000000000000105800000000000000000000000000000000))
 (.node 1 (.leaf 1021093110790000078900000000000000000000000000000000000000000000000000000000000000000000000000000000000000000000000000000000000000000000000000000000000000000000000000000000000000000000000000000000000000000000000000000000000000000000000000000000000000000000)
 (.leaf 10800000104600000000000000000000000000000000000010810000000000000000000000000000000000000000102300000000000000000000000000000000000000001024000000000000000000000000000000000000000000001048000000000000000010250000)))
 (.node 2 (.node 1 (.leaf 44300000000000000001001000000000000000000001003002600000000000000000000104900000000106900000000005000000000046910820000000006360000000000000000080910320807000006380503000000000000106209801071073900000000000000000000000000001063074810360000)
 (.leaf 185020400000000106600000000023700000000000000000000000000000000088500000000000000000000108300000000000000000000055800000000000000001076000000000000000008910000000000000847108400000000000000000000059100000000107700000000000000000000000000000000000000000000))
 (.node 1 (.leaf 107800001056000000000402000000000000108500001057000000000000000000000000000000000000000000000000000000000000105800000000000000000000000000000000000000001079000000000000000000000000000000000000000000000000000000000000000000000000)
 (.leaf 10870000000000000000000010800000000000000998000000000000000000000000000000000000000000000000))))
 (.node 4 (.node 2 (.node 1 (.leaf 1088000000000000000000000000000000000000000000000000000000000000000000000000044410010000000000000000000000260000102700000000000000001069046700000039000000000068108210890000063600000000009905030000)
 (.leaf 808000010620000000009800000000000000000000005220910109000001063074800000000000002130204000000001066000000000000000000000000000000000885000000000000108300000000000000000000056800000000109110760000000000000847000010840000000000000000000000001077000000000000))
 (.node 1 (.leaf 107800000000000000000000040200000000000000001057000000000000109200000000000000000000000000000000000010590000000000000000000000000000000000000000000000000000000000000000000000000000000000000000000000000000)
 (.leaf 1087000000000000000000001080000000000000000000000000000000000000000000000000000010930000000000000000)))
 (.node 2 (.node 1 (.leaf 108800000000000000000000000000000000000000000000000000000000100100000000000004440000000000000000000000000000000000000000000008660466000000391095079700690000000010821061000000000000013100001062100806431097109800000000)
 (.leaf 5220910109000001063000000000748020900000000000000000000000000000000109900001083029600000000000000000568000010911076000000001100000000001084000000000000000000001077000000000000000000000000000000000000000000000000000010780000000000000000000004020000))
 (.node 1 (.leaf 10680000000000000000000000000000000000310000000000000000000000000000000000000000000000000000000000000000000000000000000000000000000000000000000000000000000000000000000000000000000000000000000000000000)
 (.leaf 108700000000000010800000000000000000000000001101000000001093000000000000000000001102000000000000000000000000000000000000000000000000000000000000000000000000000000000000000011030000000000000444000000000000000000000000003108660000)))))
 (.node 8 (.node 4 (.node 2 (.node 1 (.leaf 3900001095109611040069108200000000000000000131000000000000064310971098000000000000052209100000000000000000000002100544000000000000000000000000000010830295000000000000000010760572057510910000000000000000108400000000000000000000107700000000000000000000)
 (.leaf 1078000000000000000000000000000000000000000000000000000000000000000000000000000000001068000000000000000000000000000000000000000000000000000000000000000000000000000000000000000000000000000000000000000000000000000000000000000000000000))
 (.node 1 (.leaf 1087000000000000000000000000000000000000108000000000000000001093110100000000001800001102000000000000000000001105000000000000000000000000000000000000000000000000000000000000110609380000110700000000000000310865000000000000109510960069)
 (.leaf 1082000011080000013100000000064210971098000000000000000009100000000000000000054402270000000000000000000000001109000000000295000000000000000005750572109100001110000000001084000000000000000000000000000000000000000000000000000000000000000000000000000000000000)))
 (.node 2 (.node 1 (.leaf 111100000000000000000000106800000000000000000000000000000000000000000000000000000000000000000000000000000000000000000000000000000000000000000000000000000000000000000000108700000000000000000000000000000000000000000000000000000000)
 (.leaf 18109300001102110100000000000000000000000000000000000000000000000000000000000000000000000011061112000011130000000011070000045408650000111400001095109600000734000000000474000000000642000010970000000000000000074300000000000000000000054400000000000000000000))
 (.node 1 (.leaf 959000011160000029600000000057500001110000000000000000000000000000000000000000000000000000000000000000011170000000000000000000000000000000000000000000011110000104400000000000000000000000000000000000000000000000000000000000000000000000000000000000000000000)
 (.leaf 11180000000000000000000000000000000000000000000000000000000000000000000000000000000000000000001810931101000000000000000000000000000011190000000000000000000000000000000011061120111200001113002500000000000011140000109500001096000000000000000000000000))))
 (.node 4 (.node 2 (.node 1 (.leaf 126064610971121112200000000053000000000000009150000054400000000000000000000095800001116000009190000000000000000000000000000000000000000000000000000000000000000000000001117000000000000000000000000000000000000000000001111000004110000000000000000000000000000)
 (.leaf 180000000000000000000000000000000000001119000000000000112300000000000000001120111200001113000000000000062700000000))
 (.node 1 (.leaf 11240000080100000000000000000126000000000000112200000820053000000000091500000544000000000000000000000000095800000000000000000000112600000000000000000000000000000000000000000000000011170000000000000000000000000000000000000000000000000000000004110000)
 (.leaf 180000000000000000000011271094000000001119000000001123000000000000000011280000000011130000112911300627)))
 (.node 2 (.node 1 (.leaf 1124000000000801000000000000012600001132000011221125053010120915000000000000000000000000113300000000000000000000000011260000000000000000000000000000000000000000000011170000000000000000000000000000000000000000104300000411000000000000000011340000)
 (.leaf 1135000000000000000000000000000000000000000011271094000000001119000011230000000000001128113611131129000011300627000000001124000000000802000001260000000006481137))
 (.node 1 (.leaf 1122112505300000000000000000075600000000113302700000000000000000000011260000058600000000000000000000000000000000000000000000000000000000000000000000104300000000000000001134000000000000000000000000000000000000000000000000000000000000000000000000000000000000)
 (.leaf 1135000000000000000000000000000000000000109411270000000011190000112300001128000011360000112900000000002900000000112400000000048900000126014500000000000011221125052900000000000000000000000002700000000000000000000000001126000000000000000000000000)))))))))))
 (.node 16 (.node 8 (.node 4 (.node 2 (.node 1 (.leaf 104300000000000011341138000000000000000000000000000000000000000000000000000000000000000000000000000000000000113500000000000000000000000000000000000010941127000000000000000011230000112800000000000011291131)
 (.leaf 11240000000004880000014500000814114000001125000000000000000000000000000002690000000000000000000011260000114100000000000000000000000000000000000000000000000000000000000010430000000000001134113800000000000000000000000000000000000000000000000000000000))
 (.node 1 (.leaf 113500000000000000000000000011421094112700001143000000000000000011280000000000001129000000000000000000000000048800000000000011391144114000000000000000000000000000000000000008411145000000000000000000000000000000000000000000000000000000000000)
 (.leaf 104300000000000009941138000000000000000000000000000000000000000000000000000000001135000000000000000000000000114200000000000011430000000000000000000000000000114600000000000000000000000000000000000010091139000000001148000000000000000000000000)))
 (.node 2 (.node 1 (.leaf 11450000000000000000000000000000000000000000000000000000000000000000000000000000000000000993113800000000000000000000000000000000000000000000000000000000000000000000000000000000000011420000000011491143000000000000000000000000000011460000115000000000)
 (.leaf 113911521151000011530000115400000000000000000000114500000000000000000000000000000000000000000000111700000000000011550000000000000000000000000000000000000000000000000000000000000000000000000000000000000000000000000000114200001143114911560000))
 (.node 1 (.leaf 114600000000000000000000000000000000113911520000115708770000115400000000000000001145000000000000000000000000000000000000000000000000000000000000108600000000000011580000000000000000000000000000000000000000000000000000000000000000000000000000)
 (.leaf 114311421156114900000000000000000000114600000795000000000000000000000000115211591157087700001154000000000000000011450000000000001017000000000000000000000000000000001160116110860000060200001158000000000000000000000000000000000000000000000000000000000000))))
 (.node 4 (.node 2 (.node 1 (.leaf 11561149116200001163000011641146000000000000000000000000000000000156115911570877000011541165000000000000000000001017000000000000000000000000000000001160116110860000000011580000000000000000000000000000000000000000000000000000000000000000)
 (.leaf 1156000011491162000011630000116400000000116600000000000000000000115911570877000011540000000000000000000000000000101700000000000000000000000007741161108611670000115800000000000000000000000000000000000000000000000000000000000000000000000000001156))
 (.node 1 (.leaf 11621163000000000458000000480000000000000000000000001159115700000000000000000000000000000000101700000000000000000000077411610000116700001158000000000000000000000000000000000000000000000000000000000000000000000000000000000000116211630000000011680461)
 (.leaf 458000000000000000011691159000000000000024709570000000000000000000010170000000011700000077411610000116700000000000000000000000000000000000000000000000000000000000000000000000000000000000000001171117211631162000000001168046106290000000000000000116900000000)))
 (.node 2 (.node 1 (.leaf 9571115000000000686000000000000117000000773000000001167000000000000000000000000000000000000000000000000000000000000000000000000117111720000000000000000046200000628000000000000000011690000000000000957111500000000068600000000117000000000000000001167)
 (.leaf 1171117200000000000000000000000000000000000000001169000000000000111509570000030400000000000011700000000011731174000000000000000000000000000000000000000000000000000011711172000000000000000000000000))
 (.node 1 (.leaf 1175000011690000101200000000111511760304000000000000117000000000117311741177000000000000000000000000000000000000000011710000117211780000000000000000117500000000000007460000000005491176030400000000000000000000000011731174117700000000000000000000000000000000)
 (.leaf 59000000000000000005490000117600000000000000000000000011741177117800000000000000000000000000000000000000000000000011780000000011790000005800000000054900000000117600000000000000000000000011741177000000000000000000000000)))))
 (.node 8 (.node 4 (.node 2 (.node 1 (.leaf 118004390000000000000058117900000549000000001176000000000000000000000000000011770000000000000000000000000000000000000000000011800439000000000000000000570000000000000000000000000000000000000000000000000000000000000000000000000000000000000000)
 (.leaf 1180043800000000000000571181000000000000000006810000000000000000000000000000000004700000000000000000000000000000118000000000000000000470000000000000023800000000068100000000000000000000000000000000000000000000000000000000000000001180118300000000000000000000))
 (.node 1 (.leaf 1184000010730000118505740000000000000000000000000000000000000000000000000000000000000000000000001026118600001184000010730000118503210000000000000000000000000000000000000000000000000000118707850000118810260000000011840000118200000320000000000000000000000000)
 (.leaf 1187000000001188102611890000118400001182000003200000000000000000000000000000000000000000000000001187119000001188102611890000118400000211000003190000000000000000000000000000000000000000000000001187119000000000000011890000000000000231)))
 (.node 2 (.node 1 (.leaf 31900001191000000000000000000000000000000000000000011870000000011920000005208640000000002310000032200001191000000000000000000000000000000000000000000001193119200001189000000000000023111940322119100000000000000000000000000000000000000000000119311920000)
 (.leaf 460000000001195023111940322119100000000000000000000000000000000000000001193119200000460000001001195023011940339119100000000000000000000000000000000000000001193119200000459009811950000119403390000000000000000000000000000000000000000000011930000000000000098))
 (.node 1 (.leaf 1195000011940339000000000000000000000000000000000000119600000000000000000098119500000000033900000000000000000000000000000000000011960000000000000086000000000000057700000000000000000000000000000000000011960000000000000086000000000000057700000000000000000000)
 (.leaf 1196000011970000000000000000000006890000000000000000000000000000000011960000000011970906000000000000084500000000000000000000000000000000000000000000119709060000053900000000000000000000000000000000000000000000000011970906000005390000000006970000))))
 (.node 4 (.node 2 (.node 1 (.leaf 1197049000000539000000000000069700000000000000000000000000000000119805391199000000000697000000000000000000000000000001140000024111990000000006970000000000000000000000000115017902401199000000000697000000000000000000000000011501790245)
 (.leaf 1199000000000000000000000000000000000000011501800000119907690000000000000000000000000000114701800214000000000000000000000000000000000000013912000215000000000000000000000000000000000000000001390212000000000000000000000000000000000000000000000218000000000000))
 (.node 1 (.leaf 115202180000000000000000000000000000000000000000000002160000000000000000000000000000000000000000000002170000000000000000000000000000000005280217000000000000000000000000000000000528022400000000000000000000000000000000000002240000)
 (.leaf 22600000000000000000000000000000000022500000000000000000000000000000000022500000000000000000000000002250000000000000000000000000000022500000000000000000000000000000232000000000000000000000000000002220000000000000000000000000000)))
 (.node 1 (.leaf 222000012010000000000000000000002220000120100000000000000000000109012010000000000000000000010901201000000000000000010901201000000000000000000000000000000000000000000000000000000000000000000000000000000000000000000000000111800000000111800000000111800000000)
 (.leaf 1118000000000000000000000996000000000996000000000996000000000000000000000000000000000000000000000000000000000000000000000000000000000000000000000000000000000000000000000000000000000000000000000000000000000000000000000000000000000000000000000000000000000000))))))

/-- Lists of rows of reservoirs, each plus one (5 digits), the first in the last digits. -/
def serveTable : DTree :=
 (.node 1024 (.node 512 (.node 256 (.node 128 (.node 64 (.node 32 (.node 16 (.node 8 (.node 4 (.node 2 (.node 1 (.leaf 0)
 (.leaf 4786))
 (.node 1 (.leaf 5000)
 (.leaf 5003)))
 (.node 2 (.node 1 (.leaf 5947)
 (.leaf 5952))
 (.node 1 (.leaf 6157)
 (.leaf 6402))))
 (.node 4 (.node 2 (.node 1 (.leaf 6632)
 (.leaf 6862))
 (.node 1 (.leaf 551354304406862)
 (.leaf 7725)))
 (.node 2 (.node 1 (.leaf 772607725)
 (.leaf 7726))
 (.node 1 (.leaf 8147)
 (.leaf 8148)))))
 (.node 8 (.node 4 (.node 2 (.node 1 (.leaf 8332)
 (.leaf 8517))
 (.node 1 (.leaf 9033)
 (.leaf 9941)))
 (.node 2 (.node 1 (.leaf 11410)
 (.leaf 5553611410))
 (.node 1 (.leaf 11611)
 (.leaf 11773))))
 (.node 4 (.node 2 (.node 1 (.leaf 12165)
 (.leaf 6450512347))
 (.node 1 (.leaf 12614)
 (.leaf 12718)))
 (.node 2 (.node 1 (.leaf 12720)
 (.leaf 6514912720))
 (.node 1 (.leaf 12744)
 (.leaf 3497712744))))))
 (.node 16 (.node 8 (.node 4 (.node 2 (.node 1 (.leaf 12753)
 (.leaf 12915))
 (.node 1 (.leaf 12965)
 (.leaf 13289)))
 (.node 2 (.node 1 (.leaf 3527213452)
 (.leaf 13455))
 (.node 1 (.leaf 13581)
 (.leaf 5990613581))))
 (.node 4 (.node 2 (.node 1 (.leaf 13587)
 (.leaf 13644))
 (.node 1 (.leaf 1381013644)
 (.leaf 13754)))
 (.node 2 (.node 1 (.leaf 13796)
 (.leaf 13810))
 (.node 1 (.leaf 13948)
 (.leaf 3538313948)))))
 (.node 8 (.node 4 (.node 2 (.node 1 (.leaf 660633538313948)
 (.leaf 13955))
 (.node 1 (.leaf 5990613955)
 (.leaf 13994)))
 (.node 2 (.node 1 (.leaf 6674013994)
 (.leaf 14028))
 (.node 1 (.leaf 14029)
 (.leaf 14167))))
 (.node 4 (.node 2 (.node 1 (.leaf 3582414167)
 (.leaf 14206))
 (.node 1 (.leaf 663921441114206)
 (.leaf 6639214206)))
 (.node 2 (.node 1 (.leaf 14329)
 (.leaf 14339))
 (.node 1 (.leaf 4978414339)
 (.leaf 14381)))))))
 (.node 32 (.node 16 (.node 8 (.node 4 (.node 2 (.node 1 (.leaf 3568314381)
 (.leaf 14411))
 (.node 1 (.leaf 14420)
 (.leaf 14494)))
 (.node 2 (.node 1 (.leaf 358043566214494)
 (.leaf 3580414494))
 (.node 1 (.leaf 14555)
 (.leaf 14567))))
 (.node 4 (.node 2 (.node 1 (.leaf 5881814567)
 (.leaf 14595))
 (.node 1 (.leaf 14733)
 (.leaf 14736)))
 (.node 2 (.node 1 (.leaf 447254466214736)
 (.leaf 4472514736))
 (.node 1 (.leaf 14753)
 (.leaf 14758)))))
 (.node 8 (.node 4 (.node 2 (.node 1 (.leaf 14854)
 (.leaf 4464914854))
 (.node 1 (.leaf 14886)
 (.leaf 3575714886)))
 (.node 2 (.node 1 (.leaf 14913)
 (.leaf 14994))
 (.node 1 (.leaf 15030)
 (.leaf 15166))))
 (.node 4 (.node 2 (.node 1 (.leaf 3598715166)
 (.leaf 15189))
 (.node 1 (.leaf 5747815189)
 (.leaf 15191)))
 (.node 2 (.node 1 (.leaf 15210)
 (.leaf 15225))
 (.node 1 (.leaf 15252)
 (.leaf 3608015252))))))
 (.node 16 (.node 8 (.node 4 (.node 2 (.node 1 (.leaf 15311)
 (.leaf 1531815317))
 (.node 1 (.leaf 15353)
 (.leaf 62669608245332115353)))
 (.node 2 (.node 1 (.leaf 626695332115353)
 (.leaf 15358))
 (.node 1 (.leaf 15380)
 (.leaf 3606915380))))
 (.node 4 (.node 2 (.node 1 (.leaf 15472)
 (.leaf 15484))
 (.node 1 (.leaf 4493444814363273616216077157851548615484)
 (.leaf 53298448143616215486)))
 (.node 2 (.node 1 (.leaf 532984481415486)
 (.leaf 15488))
 (.node 1 (.leaf 15520)
 (.leaf 15709)))))
 (.node 8 (.node 4 (.node 2 (.node 1 (.leaf 15785)
 (.leaf 15803))
 (.node 1 (.leaf 4487215803)
 (.leaf 6569964071608404487215803)))
 (.node 2 (.node 1 (.leaf 15808)
 (.leaf 15810))
 (.node 1 (.leaf 574963617415821)
 (.leaf 15822))))
 (.node 4 (.node 2 (.node 1 (.leaf 36343362851582415822)
 (.leaf 3634315822))
 (.node 1 (.leaf 15824)
 (.leaf 3628515824)))
 (.node 2 (.node 1 (.leaf 15861)
 (.leaf 3623515866))
 (.node 1 (.leaf 15880)
 (.leaf 15922))))))))
 (.node 64 (.node 32 (.node 16 (.node 8 (.node 4 (.node 2 (.node 1 (.leaf 3626215922)
 (.leaf 363733626215922))
 (.node 1 (.leaf 15955)
 (.leaf 15967)))
 (.node 2 (.node 1 (.leaf 6217615979)
 (.leaf 3632716077))
 (.node 1 (.leaf 449343632716077)
 (.leaf 16103))))
 (.node 4 (.node 2 (.node 1 (.leaf 16108)
 (.leaf 50067166031627116108))
 (.node 1 (.leaf 500671627116108)
 (.leaf 16109)))
 (.node 2 (.node 1 (.leaf 16112)
 (.leaf 16120))
 (.node 1 (.leaf 16243)
 (.leaf 500671660316271)))))
 (.node 8 (.node 4 (.node 2 (.node 1 (.leaf 5006716271)
 (.leaf 5003016276))
 (.node 1 (.leaf 16330)
 (.leaf 16407)))
 (.node 2 (.node 1 (.leaf 16438)
 (.leaf 500523651016443))
 (.node 1 (.leaf 5005216443)
 (.leaf 16446))))
 (.node 4 (.node 2 (.node 1 (.leaf 16451)
 (.leaf 16459))
 (.node 1 (.leaf 16576)
 (.leaf 16603)))
 (.node 2 (.node 1 (.leaf 6578516603)
 (.leaf 5753916608))
 (.node 1 (.leaf 16652)
 (.leaf 16727))))))
 (.node 16 (.node 8 (.node 4 (.node 2 (.node 1 (.leaf 5343016727)
 (.leaf 16774))
 (.node 1 (.leaf 16784)
 (.leaf 367291723016928)))
 (.node 2 (.node 1 (.leaf 3672916928)
 (.leaf 16935))
 (.node 1 (.leaf 16938)
 (.leaf 170941693916938))))
 (.node 4 (.node 2 (.node 1 (.leaf 36731170941693916938)
 (.leaf 1709416939))
 (.node 1 (.leaf 4514516943)
 (.leaf 17091)))
 (.node 2 (.node 1 (.leaf 17092)
 (.leaf 4514317092))
 (.node 1 (.leaf 17098)
 (.leaf 17100)))))
 (.node 8 (.node 4 (.node 2 (.node 1 (.leaf 17108)
 (.leaf 3663217108))
 (.node 1 (.leaf 4516117188)
 (.leaf 671094516117188)))
 (.node 2 (.node 1 (.leaf 6710917188)
 (.leaf 17215))
 (.node 1 (.leaf 17346)
 (.leaf 17386))))
 (.node 4 (.node 2 (.node 1 (.leaf 17503)
 (.leaf 626981803217503))
 (.node 1 (.leaf 6269817503)
 (.leaf 3678417536)))
 (.node 2 (.node 1 (.leaf 17538)
 (.leaf 17552))
 (.node 1 (.leaf 3691017552)
 (.leaf 17631)))))))
 (.node 32 (.node 16 (.node 8 (.node 4 (.node 2 (.node 1 (.leaf 4527637011180361790417631)
 (.leaf 452761790417631))
 (.node 1 (.leaf 17662)
 (.leaf 6085917662)))
 (.node 2 (.node 1 (.leaf 17663)
 (.leaf 501933696617666))
 (.node 1 (.leaf 5019317666)
 (.leaf 17667))))
 (.node 4 (.node 2 (.node 1 (.leaf 17803)
 (.leaf 370111803617904))
 (.node 1 (.leaf 45276370111803617904)
 (.leaf 4527617904)))
 (.node 2 (.node 1 (.leaf 626994528018205180621793117929)
 (.leaf 452801806217929))
 (.node 1 (.leaf 62699452801806217929)
 (.leaf 4528017929)))))
 (.node 8 (.node 4 (.node 2 (.node 1 (.leaf 17931)
 (.leaf 62699182051806217931))
 (.node 1 (.leaf 1820517931)
 (.leaf 6001218027)))
 (.node 2 (.node 1 (.leaf 671493700918032)
 (.leaf 6269818032))
 (.node 1 (.leaf 671496269818032)
 (.leaf 6714918032))))
 (.node 4 (.node 2 (.node 1 (.leaf 1817418034)
 (.leaf 184601817418034))
 (.node 1 (.leaf 671493700918034)
 (.leaf 18036)))
 (.node 2 (.node 1 (.leaf 3701118036)
 (.leaf 18038))
 (.node 1 (.leaf 183171831618038)
 (.leaf 18116))))))
 (.node 16 (.node 8 (.node 4 (.node 2 (.node 1 (.leaf 372861846018174)
 (.leaf 18175))
 (.node 1 (.leaf 1846018175)
 (.leaf 18205)))
 (.node 2 (.node 1 (.leaf 18206)
 (.leaf 5893818206))
 (.node 1 (.leaf 18310)
 (.leaf 627123734718310))))
 (.node 4 (.node 2 (.node 1 (.leaf 18316)
 (.leaf 18317))
 (.node 1 (.leaf 18433)
 (.leaf 18451)))
 (.node 2 (.node 1 (.leaf 5356118451)
 (.leaf 631365356118451))
 (.node 1 (.leaf 666336313618451)
 (.leaf 18458)))))
 (.node 8 (.node 4 (.node 2 (.node 1 (.leaf 6222053641536081857818576)
 (.leaf 67035622205592553641536081901218576))
 (.node 1 (.leaf 62220536411901218576)
 (.leaf 622205364118576)))
 (.node 2 (.node 1 (.leaf 6222018576)
 (.leaf 5360818578))
 (.node 1 (.leaf 18720)
 (.leaf 661976472718720))))
 (.node 4 (.node 2 (.node 1 (.leaf 19012)
 (.leaf 376551937719012))
 (.node 1 (.leaf 19014)
 (.leaf 1913619014)))
 (.node 2 (.node 1 (.leaf 5599819014)
 (.leaf 19019))
 (.node 1 (.leaf 1902019019)
 (.leaf 19021)))))))))
 (.node 128 (.node 64 (.node 32 (.node 16 (.node 8 (.node 4 (.node 2 (.node 1 (.leaf 19136)
 (.leaf 3728619136))
 (.node 1 (.leaf 19374)
 (.leaf 536825036119374)))
 (.node 2 (.node 1 (.leaf 5368219374)
 (.leaf 19377))
 (.node 1 (.leaf 3765519377)
 (.leaf 456643765519377))))
 (.node 4 (.node 2 (.node 1 (.leaf 19485)
 (.leaf 19487))
 (.node 1 (.leaf 19492)
 (.leaf 5599919492)))
 (.node 2 (.node 1 (.leaf 19748)
 (.leaf 653075375519748))
 (.node 1 (.leaf 6530719748)
 (.leaf 19751)))))
 (.node 8 (.node 4 (.node 2 (.node 1 (.leaf 19840)
 (.leaf 19849))
 (.node 1 (.leaf 19851)
 (.leaf 45778457472011819851)))
 (.node 2 (.node 1 (.leaf 537532039519863)
 (.leaf 5375319863))
 (.node 1 (.leaf 3781019871)
 (.leaf 20117))))
 (.node 4 (.node 2 (.node 1 (.leaf 20118)
 (.leaf 457784574720118))
 (.node 1 (.leaf 5056520129)
 (.leaf 20131)))
 (.node 2 (.node 1 (.leaf 458273801920131)
 (.leaf 6225259030458273801920131))
 (.node 1 (.leaf 4582720131)
 (.leaf 20138))))))
 (.node 16 (.node 8 (.node 4 (.node 2 (.node 1 (.leaf 20372)
 (.leaf 3805520372))
 (.node 1 (.leaf 20398)
 (.leaf 2054220398)))
 (.node 2 (.node 1 (.leaf 20399)
 (.leaf 3811020417))
 (.node 1 (.leaf 20662)
 (.leaf 577574578120662))))
 (.node 4 (.node 2 (.node 1 (.leaf 5775720662)
 (.leaf 3805520769))
 (.node 1 (.leaf 38248381033805520769)
 (.leaf 3810320769)))
 (.node 2 (.node 1 (.leaf 609493839020769)
 (.leaf 20884))
 (.node 1 (.leaf 20895)
 (.leaf 3795320895)))))
 (.node 8 (.node 4 (.node 2 (.node 1 (.leaf 20903)
 (.leaf 381952134821011))
 (.node 1 (.leaf 3819521011)
 (.leaf 21042)))
 (.node 2 (.node 1 (.leaf 21102)
 (.leaf 21108))
 (.node 1 (.leaf 21128)
 (.leaf 21129))))
 (.node 4 (.node 2 (.node 1 (.leaf 21155)
 (.leaf 21224))
 (.node 1 (.leaf 21245)
 (.leaf 21338)))
 (.node 2 (.node 1 (.leaf 5071821338)
 (.leaf 21440))
 (.node 1 (.leaf 21448)
 (.leaf 2155321552)))))))
 (.node 32 (.node 16 (.node 8 (.node 4 (.node 2 (.node 1 (.leaf 3842921552)
 (.leaf 460293842921552))
 (.node 1 (.leaf 21553)
 (.leaf 2204221656)))
 (.node 2 (.node 1 (.leaf 4611721656)
 (.leaf 21741))
 (.node 1 (.leaf 21755)
 (.leaf 21758))))
 (.node 4 (.node 2 (.node 1 (.leaf 21832)
 (.leaf 21843))
 (.node 1 (.leaf 561395073721843)
 (.leaf 5613921843)))
 (.node 2 (.node 1 (.leaf 5616621843)
 (.leaf 21850))
 (.node 1 (.leaf 2204921850)
 (.leaf 21941)))))
 (.node 8 (.node 4 (.node 2 (.node 1 (.leaf 21956)
 (.leaf 22035))
 (.node 1 (.leaf 4618522035)
 (.leaf 22042)))
 (.node 2 (.node 1 (.leaf 22128)
 (.leaf 2229122212))
 (.node 1 (.leaf 22291)
 (.leaf 22371))))
 (.node 4 (.node 2 (.node 1 (.leaf 22470)
 (.leaf 5088822470))
 (.node 1 (.leaf 22471)
 (.leaf 22514)))
 (.node 2 (.node 1 (.leaf 3884022514)
 (.leaf 4627422550))
 (.node 1 (.leaf 22640)
 (.leaf 5785022640))))))
 (.node 16 (.node 8 (.node 4 (.node 2 (.node 1 (.leaf 22755)
 (.leaf 22770))
 (.node 1 (.leaf 22830)
 (.leaf 2302622830)))
 (.node 2 (.node 1 (.leaf 464222302622830)
 (.leaf 22872))
 (.node 1 (.leaf 3898422872)
 (.leaf 22971))))
 (.node 4 (.node 2 (.node 1 (.leaf 2315822971)
 (.leaf 23023))
 (.node 1 (.leaf 23026)
 (.leaf 4642223026)))
 (.node 2 (.node 1 (.leaf 23132)
 (.leaf 23135))
 (.node 1 (.leaf 23157)
 (.leaf 2315823157)))))
 (.node 8 (.node 4 (.node 2 (.node 1 (.leaf 23158)
 (.leaf 23218))
 (.node 1 (.leaf 23288)
 (.leaf 23301)))
 (.node 2 (.node 1 (.leaf 23384)
 (.leaf 23396))
 (.node 1 (.leaf 23397)
 (.leaf 2364523487))))
 (.node 4 (.node 2 (.node 1 (.leaf 540442364523487)
 (.leaf 541022364523487))
 (.node 1 (.leaf 5404423487)
 (.leaf 23515)))
 (.node 2 (.node 1 (.leaf 2359623515)
 (.leaf 23549))
 (.node 1 (.leaf 23596)
 (.leaf 23630))))))))
 (.node 64 (.node 32 (.node 16 (.node 8 (.node 4 (.node 2 (.node 1 (.leaf 23631)
 (.leaf 5410223645))
 (.node 1 (.leaf 23647)
 (.leaf 23779)))
 (.node 2 (.node 1 (.leaf 23866)
 (.leaf 24069))
 (.node 1 (.leaf 24276)
 (.leaf 24537))))
 (.node 4 (.node 2 (.node 1 (.leaf 25043)
 (.leaf 25278))
 (.node 1 (.leaf 25393)
 (.leaf 25648)))
 (.node 2 (.node 1 (.leaf 25730)
 (.leaf 25811))
 (.node 1 (.leaf 26297)
 (.leaf 27068)))))
 (.node 8 (.node 4 (.node 2 (.node 1 (.leaf 27089)
 (.leaf 4720927089))
 (.node 1 (.leaf 27171)
 (.leaf 27693)))
 (.node 2 (.node 1 (.leaf 27776)
 (.leaf 4738927776))
 (.node 1 (.leaf 28073)
 (.leaf 6180128073))))
 (.node 4 (.node 2 (.node 1 (.leaf 28250)
 (.leaf 2834328342))
 (.node 1 (.leaf 28423)
 (.leaf 618186113428515)))
 (.node 2 (.node 1 (.leaf 28633)
 (.leaf 28965))
 (.node 1 (.leaf 29096)
 (.leaf 29150))))))
 (.node 16 (.node 8 (.node 4 (.node 2 (.node 1 (.leaf 2920729150)
 (.leaf 29207))
 (.node 1 (.leaf 29557)
 (.leaf 29566)))
 (.node 2 (.node 1 (.leaf 29923)
 (.leaf 5468029923))
 (.node 1 (.leaf 29950)
 (.leaf 30043))))
 (.node 4 (.node 2 (.node 1 (.leaf 30145)
 (.leaf 30221))
 (.node 1 (.leaf 3024430243)
 (.leaf 30256)))
 (.node 2 (.node 1 (.leaf 30264)
 (.leaf 3030830307))
 (.node 1 (.leaf 30326)
 (.leaf 30354)))))
 (.node 8 (.node 4 (.node 2 (.node 1 (.leaf 31819)
 (.leaf 32311))
 (.node 1 (.leaf 32599)
 (.leaf 32867)))
 (.node 2 (.node 1 (.leaf 32870)
 (.leaf 32966))
 (.node 1 (.leaf 34003)
 (.leaf 6642834003))))
 (.node 4 (.node 2 (.node 1 (.leaf 34031)
 (.leaf 34305))
 (.node 1 (.leaf 34408)
 (.leaf 34533)))
 (.node 2 (.node 1 (.leaf 5869934533)
 (.leaf 34541))
 (.node 1 (.leaf 5298834541)
 (.leaf 34768)))))))
 (.node 32 (.node 16 (.node 8 (.node 4 (.node 2 (.node 1 (.leaf 34772)
 (.leaf 34843))
 (.node 1 (.leaf 34894)
 (.leaf 34898)))
 (.node 2 (.node 1 (.leaf 34903)
 (.leaf 34907))
 (.node 1 (.leaf 34977)
 (.leaf 4421634980))))
 (.node 4 (.node 2 (.node 1 (.leaf 35071)
 (.leaf 35116))
 (.node 1 (.leaf 6599435116)
 (.leaf 35129)))
 (.node 2 (.node 1 (.leaf 5556435129)
 (.leaf 660633538335187))
 (.node 1 (.leaf 6606335187)
 (.leaf 35278)))))
 (.node 8 (.node 4 (.node 2 (.node 1 (.leaf 35390)
 (.leaf 5988735390))
 (.node 1 (.leaf 35588)
 (.leaf 5880135588)))
 (.node 2 (.node 1 (.leaf 35628)
 (.leaf 35662))
 (.node 1 (.leaf 35677)
 (.leaf 4466135680))))
 (.node 4 (.node 2 (.node 1 (.leaf 35683)
 (.leaf 35757))
 (.node 1 (.leaf 5328335804)
 (.leaf 35823)))
 (.node 2 (.node 1 (.leaf 35824)
 (.leaf 35864))
 (.node 1 (.leaf 4988835864)
 (.leaf 35890))))))
 (.node 16 (.node 8 (.node 4 (.node 2 (.node 1 (.leaf 35951)
 (.leaf 35960))
 (.node 1 (.leaf 35995)
 (.leaf 36018)))
 (.node 2 (.node 1 (.leaf 36020)
 (.leaf 6216036051))
 (.node 1 (.leaf 36078)
 (.leaf 36080))))
 (.node 4 (.node 2 (.node 1 (.leaf 36114)
 (.leaf 5747036114))
 (.node 1 (.leaf 5751036114)
 (.leaf 36129)))
 (.node 2 (.node 1 (.leaf 5333736134)
 (.leaf 36140))
 (.node 1 (.leaf 3620636154)
 (.leaf 588593620636154)))))
 (.node 8 (.node 4 (.node 2 (.node 1 (.leaf 36162)
 (.leaf 5749636174))
 (.node 1 (.leaf 36177)
 (.leaf 36219)))
 (.node 2 (.node 1 (.leaf 36235)
 (.leaf 36259))
 (.node 1 (.leaf 36285)
 (.leaf 36299))))
 (.node 4 (.node 2 (.node 1 (.leaf 36327)
 (.leaf 36343))
 (.node 1 (.leaf 36350)
 (.leaf 36373)))
 (.node 2 (.node 1 (.leaf 3649936375)
 (.leaf 36393))
 (.node 1 (.leaf 36443)
 (.leaf 36450))))))))))
 (.node 256 (.node 128 (.node 64 (.node 32 (.node 16 (.node 8 (.node 4 (.node 2 (.node 1 (.leaf 36458)
 (.leaf 36499))
 (.node 1 (.leaf 36512)
 (.leaf 3669336512)))
 (.node 2 (.node 1 (.leaf 36545)
 (.leaf 36547))
 (.node 1 (.leaf 5343336563)
 (.leaf 36577))))
 (.node 4 (.node 2 (.node 1 (.leaf 36614)
 (.leaf 36632))
 (.node 1 (.leaf 6380136687)
 (.leaf 36693)))
 (.node 2 (.node 1 (.leaf 36722)
 (.leaf 5347936722))
 (.node 1 (.leaf 558475347936722)
 (.leaf 36729)))))
 (.node 8 (.node 4 (.node 2 (.node 1 (.leaf 36731)
 (.leaf 36842))
 (.node 1 (.leaf 647185016736842)
 (.leaf 36845)))
 (.node 2 (.node 1 (.leaf 36869)
 (.leaf 36881))
 (.node 1 (.leaf 36943)
 (.leaf 36945))))
 (.node 4 (.node 2 (.node 1 (.leaf 37009)
 (.leaf 37011))
 (.node 1 (.leaf 37063)
 (.leaf 670355592537063)))
 (.node 2 (.node 1 (.leaf 37165)
 (.leaf 37216))
 (.node 1 (.leaf 37265)
 (.leaf 37286))))))
 (.node 16 (.node 8 (.node 4 (.node 2 (.node 1 (.leaf 37344)
 (.leaf 6271237347))
 (.node 1 (.leaf 37415)
 (.leaf 37555)))
 (.node 2 (.node 1 (.leaf 3759837555)
 (.leaf 37594))
 (.node 1 (.leaf 37598)
 (.leaf 37655))))
 (.node 4 (.node 2 (.node 1 (.leaf 4566437655)
 (.leaf 37660))
 (.node 1 (.leaf 37709)
 (.leaf 37953)))
 (.node 2 (.node 1 (.leaf 6008138011)
 (.leaf 622524582738019))
 (.node 1 (.leaf 6225238019)
 (.leaf 38052)))))
 (.node 8 (.node 4 (.node 2 (.node 1 (.leaf 38055)
 (.leaf 38103))
 (.node 1 (.leaf 3824838103)
 (.leaf 38110)))
 (.node 2 (.node 1 (.leaf 38191)
 (.leaf 38248))
 (.node 1 (.leaf 38299)
 (.leaf 38338))))
 (.node 4 (.node 2 (.node 1 (.leaf 3842638338)
 (.leaf 4605538348))
 (.node 1 (.leaf 38390)
 (.leaf 6094938390)))
 (.node 2 (.node 1 (.leaf 38426)
 (.leaf 38429))
 (.node 1 (.leaf 4602938429)
 (.leaf 38512)))))))
 (.node 32 (.node 16 (.node 8 (.node 4 (.node 2 (.node 1 (.leaf 4616838647)
 (.leaf 53952462234616838647))
 (.node 1 (.leaf 38710)
 (.leaf 5616438710)))
 (.node 2 (.node 1 (.leaf 38827)
 (.leaf 38835))
 (.node 1 (.leaf 38837)
 (.leaf 38840))))
 (.node 4 (.node 2 (.node 1 (.leaf 38868)
 (.leaf 38935))
 (.node 1 (.leaf 38984)
 (.leaf 39094)))
 (.node 2 (.node 1 (.leaf 39294)
 (.leaf 39301))
 (.node 1 (.leaf 39409)
 (.leaf 39487)))))
 (.node 8 (.node 4 (.node 2 (.node 1 (.leaf 39872)
 (.leaf 39969))
 (.node 1 (.leaf 40010)
 (.leaf 6105840010)))
 (.node 2 (.node 1 (.leaf 40043)
 (.leaf 40307))
 (.node 1 (.leaf 40342)
 (.leaf 40393))))
 (.node 4 (.node 2 (.node 1 (.leaf 40830)
 (.leaf 41062))
 (.node 1 (.leaf 6596341080)
 (.leaf 41207)))
 (.node 2 (.node 1 (.leaf 5663741216)
 (.leaf 41332))
 (.node 1 (.leaf 41335)
 (.leaf 41522))))))
 (.node 16 (.node 8 (.node 4 (.node 2 (.node 1 (.leaf 41538)
 (.leaf 41557))
 (.node 1 (.leaf 41603)
 (.leaf 4786541603)))
 (.node 2 (.node 1 (.leaf 41617)
 (.leaf 41660))
 (.node 1 (.leaf 42456)
 (.leaf 42679))))
 (.node 4 (.node 2 (.node 1 (.leaf 42680)
 (.leaf 5513543044))
 (.node 1 (.leaf 43140)
 (.leaf 43540)))
 (.node 2 (.node 1 (.leaf 44132)
 (.leaf 44176))
 (.node 1 (.leaf 44216)
 (.leaf 44286)))))
 (.node 8 (.node 4 (.node 2 (.node 1 (.leaf 5874444288)
 (.leaf 44289))
 (.node 1 (.leaf 44327)
 (.leaf 6470044327)))
 (.node 2 (.node 1 (.leaf 44401)
 (.leaf 6599444401))
 (.node 1 (.leaf 44625)
 (.leaf 44630))))
 (.node 4 (.node 2 (.node 1 (.leaf 44649)
 (.leaf 44662))
 (.node 1 (.leaf 4472544662)
 (.leaf 44769)))
 (.node 2 (.node 1 (.leaf 6265444769)
 (.leaf 44800))
 (.node 1 (.leaf 6155044829)
 (.leaf 44872))))))))
 (.node 64 (.node 32 (.node 16 (.node 8 (.node 4 (.node 2 (.node 1 (.leaf 44902)
 (.leaf 44910))
 (.node 1 (.leaf 44917)
 (.leaf 5995544917)))
 (.node 2 (.node 1 (.leaf 44997)
 (.leaf 45000))
 (.node 1 (.leaf 6487945000)
 (.leaf 45001))))
 (.node 4 (.node 2 (.node 1 (.leaf 651635887445001)
 (.leaf 45013))
 (.node 1 (.leaf 45043)
 (.leaf 5887045043)))
 (.node 2 (.node 1 (.leaf 45076)
 (.leaf 45079))
 (.node 1 (.leaf 45143)
 (.leaf 45161)))))
 (.node 8 (.node 4 (.node 2 (.node 1 (.leaf 45170)
 (.leaf 45186))
 (.node 1 (.leaf 5758145219)
 (.leaf 45221)))
 (.node 2 (.node 1 (.leaf 45276)
 (.leaf 45340))
 (.node 1 (.leaf 45393)
 (.leaf 45465))))
 (.node 4 (.node 2 (.node 1 (.leaf 45477)
 (.leaf 45539))
 (.node 1 (.leaf 45611)
 (.leaf 45664)))
 (.node 2 (.node 1 (.leaf 45693)
 (.leaf 45720))
 (.node 1 (.leaf 4577845747)
 (.leaf 45749))))))
 (.node 16 (.node 8 (.node 4 (.node 2 (.node 1 (.leaf 45781)
 (.leaf 45904))
 (.node 1 (.leaf 45956)
 (.leaf 5067345956)))
 (.node 2 (.node 1 (.leaf 561285067345956)
 (.leaf 45963))
 (.node 1 (.leaf 45983)
 (.leaf 561294600945983))))
 (.node 4 (.node 2 (.node 1 (.leaf 5612946009)
 (.leaf 46029))
 (.node 1 (.leaf 46030)
 (.leaf 46099)))
 (.node 2 (.node 1 (.leaf 46117)
 (.leaf 46154))
 (.node 1 (.leaf 46173)
 (.leaf 46187)))))
 (.node 8 (.node 4 (.node 2 (.node 1 (.leaf 46223)
 (.leaf 5395246223))
 (.node 1 (.leaf 46422)
 (.leaf 46482)))
 (.node 2 (.node 1 (.leaf 46487)
 (.leaf 5101646487))
 (.node 1 (.leaf 46595)
 (.leaf 46723))))
 (.node 4 (.node 2 (.node 1 (.leaf 46767)
 (.leaf 46785))
 (.node 1 (.leaf 46823)
 (.leaf 46920)))
 (.node 2 (.node 1 (.leaf 46938)
 (.leaf 46967))
 (.node 1 (.leaf 47028)
 (.leaf 5135647028)))))))
 (.node 32 (.node 16 (.node 8 (.node 4 (.node 2 (.node 1 (.leaf 47234)
 (.leaf 47389))
 (.node 1 (.leaf 47482)
 (.leaf 47628)))
 (.node 2 (.node 1 (.leaf 4766147642)
 (.leaf 47692))
 (.node 1 (.leaf 47801)
 (.leaf 47865))))
 (.node 4 (.node 2 (.node 1 (.leaf 47936)
 (.leaf 48381))
 (.node 1 (.leaf 48495)
 (.leaf 48577)))
 (.node 2 (.node 1 (.leaf 48578)
 (.leaf 48712))
 (.node 1 (.leaf 5701948712)
 (.leaf 48871)))))
 (.node 8 (.node 4 (.node 2 (.node 1 (.leaf 49224)
 (.leaf 49342))
 (.node 1 (.leaf 49413)
 (.leaf 5871149413)))
 (.node 2 (.node 1 (.leaf 49414)
 (.leaf 49497))
 (.node 1 (.leaf 49569)
 (.leaf 49610))))
 (.node 4 (.node 2 (.node 1 (.leaf 49750)
 (.leaf 5567049776))
 (.node 1 (.leaf 49784)
 (.leaf 49785)))
 (.node 2 (.node 1 (.leaf 49816)
 (.leaf 49860))
 (.node 1 (.leaf 6452249860)
 (.leaf 5882349889))))))
 (.node 16 (.node 8 (.node 4 (.node 2 (.node 1 (.leaf 49932)
 (.leaf 62669608245332149932))
 (.node 1 (.leaf 6082449932)
 (.leaf 50050)))
 (.node 2 (.node 1 (.leaf 6084550050)
 (.leaf 50082))
 (.node 1 (.leaf 50110)
 (.leaf 6471850167))))
 (.node 4 (.node 2 (.node 1 (.leaf 50169)
 (.leaf 5759550200))
 (.node 1 (.leaf 608665759550200)
 (.leaf 50243)))
 (.node 2 (.node 1 (.leaf 6270550243)
 (.leaf 50274))
 (.node 1 (.leaf 50308)
 (.leaf 50409)))))
 (.node 8 (.node 4 (.node 2 (.node 1 (.leaf 50445)
 (.leaf 50463))
 (.node 1 (.leaf 50530)
 (.leaf 5053150530)))
 (.node 2 (.node 1 (.leaf 50531)
 (.leaf 50563))
 (.node 1 (.leaf 50673)
 (.leaf 50676))))
 (.node 4 (.node 2 (.node 1 (.leaf 50718)
 (.leaf 50734))
 (.node 1 (.leaf 50737)
 (.leaf 50759)))
 (.node 2 (.node 1 (.leaf 50930)
 (.leaf 50950))
 (.node 1 (.leaf 51012)
 (.leaf 51016)))))))))
 (.node 128 (.node 64 (.node 32 (.node 16 (.node 8 (.node 4 (.node 2 (.node 1 (.leaf 51072)
 (.leaf 51163))
 (.node 1 (.leaf 51232)
 (.leaf 5126051245)))
 (.node 2 (.node 1 (.leaf 51260)
 (.leaf 51325))
 (.node 1 (.leaf 6595951325)
 (.leaf 51356))))
 (.node 4 (.node 2 (.node 1 (.leaf 51510)
 (.leaf 544215152051510))
 (.node 1 (.leaf 51626)
 (.leaf 52199)))
 (.node 2 (.node 1 (.leaf 52254)
 (.leaf 5694252254))
 (.node 1 (.leaf 52307)
 (.leaf 52486)))))
 (.node 8 (.node 4 (.node 2 (.node 1 (.leaf 52772)
 (.leaf 6671052772))
 (.node 1 (.leaf 52863)
 (.leaf 52888)))
 (.node 2 (.node 1 (.leaf 52988)
 (.leaf 53023))
 (.node 1 (.leaf 53065)
 (.leaf 5739253065))))
 (.node 4 (.node 2 (.node 1 (.leaf 53075)
 (.leaf 53125))
 (.node 1 (.leaf 53184)
 (.leaf 6592853184)))
 (.node 2 (.node 1 (.leaf 53201)
 (.leaf 6405453201))
 (.node 1 (.leaf 53240)
 (.leaf 53247))))))
 (.node 16 (.node 8 (.node 4 (.node 2 (.node 1 (.leaf 53256)
 (.leaf 53271))
 (.node 1 (.leaf 5747053271)
 (.leaf 53283)))
 (.node 2 (.node 1 (.leaf 53291)
 (.leaf 53298))
 (.node 1 (.leaf 53318)
 (.leaf 599385885953318))))
 (.node 4 (.node 2 (.node 1 (.leaf 5993853318)
 (.leaf 626696082453321))
 (.node 1 (.leaf 53331)
 (.leaf 53337)))
 (.node 2 (.node 1 (.leaf 53362)
 (.leaf 53387))
 (.node 1 (.leaf 6551253387)
 (.leaf 53395)))))
 (.node 8 (.node 4 (.node 2 (.node 1 (.leaf 53396)
 (.leaf 53411))
 (.node 1 (.leaf 53430)
 (.leaf 53461)))
 (.node 2 (.node 1 (.leaf 6503153461)
 (.leaf 53462))
 (.node 1 (.leaf 53479)
 (.leaf 53502))))
 (.node 4 (.node 2 (.node 1 (.leaf 5585653512)
 (.leaf 53546))
 (.node 1 (.leaf 5589053546)
 (.leaf 53561)))
 (.node 2 (.node 1 (.leaf 53608)
 (.leaf 53609))
 (.node 1 (.leaf 53619)
 (.leaf 53641)))))))
 (.node 32 (.node 16 (.node 8 (.node 4 (.node 2 (.node 1 (.leaf 53682)
 (.leaf 53708))
 (.node 1 (.leaf 5373353708)
 (.leaf 53711)))
 (.node 2 (.node 1 (.leaf 6007253711)
 (.leaf 53721))
 (.node 1 (.leaf 53725)
 (.leaf 53733))))
 (.node 4 (.node 2 (.node 1 (.leaf 53738)
 (.leaf 6530753755))
 (.node 1 (.leaf 53776)
 (.leaf 53941)))
 (.node 2 (.node 1 (.leaf 53950)
 (.leaf 53952))
 (.node 1 (.leaf 53993)
 (.leaf 54044)))))
 (.node 8 (.node 4 (.node 2 (.node 1 (.leaf 54102)
 (.leaf 54375))
 (.node 1 (.leaf 54421)
 (.leaf 54522)))
 (.node 2 (.node 1 (.leaf 54538)
 (.leaf 54591))
 (.node 1 (.leaf 54680)
 (.leaf 55006))))
 (.node 4 (.node 2 (.node 1 (.leaf 55063)
 (.leaf 55212))
 (.node 1 (.leaf 55250)
 (.leaf 55432)))
 (.node 2 (.node 1 (.leaf 55478)
 (.leaf 55510))
 (.node 1 (.leaf 55536)
 (.leaf 55564))))))
 (.node 16 (.node 8 (.node 4 (.node 2 (.node 1 (.leaf 55567)
 (.leaf 55604))
 (.node 1 (.leaf 6307155604)
 (.leaf 55710)))
 (.node 2 (.node 1 (.leaf 55719)
 (.leaf 55760))
 (.node 1 (.leaf 55798)
 (.leaf 55811))))
 (.node 4 (.node 2 (.node 1 (.leaf 55847)
 (.leaf 55854))
 (.node 1 (.leaf 55856)
 (.leaf 55868)))
 (.node 2 (.node 1 (.leaf 55873)
 (.leaf 6578755873))
 (.node 1 (.leaf 55890)
 (.leaf 55969)))))
 (.node 8 (.node 4 (.node 2 (.node 1 (.leaf 55979)
 (.leaf 55981))
 (.node 1 (.leaf 55982)
 (.leaf 55998)))
 (.node 2 (.node 1 (.leaf 55999)
 (.leaf 56021))
 (.node 1 (.leaf 56128)
 (.leaf 56129))))
 (.node 4 (.node 2 (.node 1 (.leaf 56139)
 (.leaf 56164))
 (.node 1 (.leaf 5780856164)
 (.leaf 56166)))
 (.node 2 (.node 1 (.leaf 56253)
 (.leaf 56555))
 (.node 1 (.leaf 56616)
 (.leaf 56627))))))))
 (.node 64 (.node 32 (.node 16 (.node 8 (.node 4 (.node 2 (.node 1 (.leaf 56632)
 (.leaf 56676))
 (.node 1 (.leaf 56942)
 (.leaf 57019)))
 (.node 2 (.node 1 (.leaf 57267)
 (.leaf 57294))
 (.node 1 (.leaf 57324)
 (.leaf 57392))))
 (.node 4 (.node 2 (.node 1 (.leaf 57470)
 (.leaf 57478))
 (.node 1 (.leaf 57510)
 (.leaf 57529)))
 (.node 2 (.node 1 (.leaf 57546)
 (.leaf 57558))
 (.node 1 (.leaf 57568)
 (.leaf 57581)))))
 (.node 8 (.node 4 (.node 2 (.node 1 (.leaf 57583)
 (.leaf 57592))
 (.node 1 (.leaf 57600)
 (.leaf 57652)))
 (.node 2 (.node 1 (.leaf 57660)
 (.leaf 57746))
 (.node 1 (.leaf 57755)
 (.leaf 57757))))
 (.node 4 (.node 2 (.node 1 (.leaf 57797)
 (.leaf 57808))
 (.node 1 (.leaf 57829)
 (.leaf 57847)))
 (.node 2 (.node 1 (.leaf 57849)
 (.leaf 57850))
 (.node 1 (.leaf 57871)
 (.leaf 57990))))))
 (.node 16 (.node 8 (.node 4 (.node 2 (.node 1 (.leaf 58076)
 (.leaf 58086))
 (.node 1 (.leaf 58124)
 (.leaf 6118358231)))
 (.node 2 (.node 1 (.leaf 58232)
 (.leaf 58361))
 (.node 1 (.leaf 58527)
 (.leaf 58623))))
 (.node 4 (.node 2 (.node 1 (.leaf 58638)
 (.leaf 58685))
 (.node 1 (.leaf 58699)
 (.leaf 58725)))
 (.node 2 (.node 1 (.leaf 58735)
 (.leaf 58744))
 (.node 1 (.leaf 58782)
 (.leaf 58801)))))
 (.node 8 (.node 4 (.node 2 (.node 1 (.leaf 58805)
 (.leaf 58806))
 (.node 1 (.leaf 58837)
 (.leaf 58838)))
 (.node 2 (.node 1 (.leaf 58859)
 (.leaf 58870))
 (.node 1 (.leaf 58878)
 (.leaf 58886))))
 (.node 4 (.node 2 (.node 1 (.leaf 58907)
 (.leaf 58917))
 (.node 1 (.leaf 58938)
 (.leaf 58959)))
 (.node 2 (.node 1 (.leaf 58980)
 (.leaf 6619658989))
 (.node 1 (.leaf 645506165059020)
 (.leaf 6455059020)))))))
 (.node 32 (.node 16 (.node 8 (.node 4 (.node 2 (.node 1 (.leaf 59030)
 (.leaf 59050))
 (.node 1 (.leaf 59074)
 (.leaf 59102)))
 (.node 2 (.node 1 (.leaf 59106)
 (.leaf 59119))
 (.node 1 (.leaf 59145)
 (.leaf 59242))))
 (.node 4 (.node 2 (.node 1 (.leaf 59373)
 (.leaf 59577))
 (.node 1 (.leaf 59606)
 (.leaf 59774)))
 (.node 2 (.node 1 (.leaf 59850)
 (.leaf 59878))
 (.node 1 (.leaf 59887)
 (.leaf 59906)))))
 (.node 8 (.node 4 (.node 2 (.node 1 (.leaf 59932)
 (.leaf 59938))
 (.node 1 (.leaf 59952)
 (.leaf 59954)))
 (.node 2 (.node 1 (.leaf 59955)
 (.leaf 60005))
 (.node 1 (.leaf 60018)
 (.leaf 60072))))
 (.node 4 (.node 2 (.node 1 (.leaf 60081)
 (.leaf 60092))
 (.node 1 (.leaf 60273)
 (.leaf 60291)))
 (.node 2 (.node 1 (.leaf 60304)
 (.leaf 60318))
 (.node 1 (.leaf 60330)
 (.leaf 60349))))))
 (.node 16 (.node 8 (.node 4 (.node 2 (.node 1 (.leaf 60379)
 (.leaf 60384))
 (.node 1 (.leaf 6522060384)
 (.leaf 60474)))
 (.node 2 (.node 1 (.leaf 60486)
 (.leaf 60634))
 (.node 1 (.leaf 6200260634)
 (.leaf 60695))))
 (.node 4 (.node 2 (.node 1 (.leaf 60709)
 (.leaf 60721))
 (.node 1 (.leaf 60745)
 (.leaf 621046147460745)))
 (.node 2 (.node 1 (.leaf 60784)
 (.leaf 60791))
 (.node 1 (.leaf 60806)
 (.leaf 60820)))))
 (.node 8 (.node 4 (.node 2 (.node 1 (.leaf 6407160840)
 (.leaf 656996407160840))
 (.node 1 (.leaf 60845)
 (.leaf 60851)))
 (.node 2 (.node 1 (.leaf 60866)
 (.leaf 60867))
 (.node 1 (.leaf 60897)
 (.leaf 60935))))
 (.node 4 (.node 2 (.node 1 (.leaf 60949)
 (.leaf 60995))
 (.node 1 (.leaf 61001)
 (.leaf 61058)))
 (.node 2 (.node 1 (.leaf 61116)
 (.leaf 61182))
 (.node 1 (.leaf 61395)
 (.leaf 61406)))))))))))
 (.node 128 (.node 64 (.node 32 (.node 16 (.node 8 (.node 4 (.node 2 (.node 1 (.leaf 61420)
 (.leaf 61436))
 (.node 1 (.leaf 61473)
 (.leaf 6210461474)))
 (.node 2 (.node 1 (.leaf 61490)
 (.leaf 61547))
 (.node 1 (.leaf 61550)
 (.leaf 61555))))
 (.node 4 (.node 2 (.node 1 (.leaf 6215561555)
 (.leaf 61560))
 (.node 1 (.leaf 61574)
 (.leaf 61592)))
 (.node 2 (.node 1 (.leaf 61594)
 (.leaf 61595))
 (.node 1 (.leaf 61603)
 (.leaf 61623)))))
 (.node 8 (.node 4 (.node 2 (.node 1 (.leaf 61650)
 (.leaf 61785))
 (.node 1 (.leaf 61796)
 (.leaf 6521361813)))
 (.node 2 (.node 1 (.leaf 61818)
 (.leaf 61998))
 (.node 1 (.leaf 62002)
 (.leaf 62039))))
 (.node 4 (.node 2 (.node 1 (.leaf 62076)
 (.leaf 62121))
 (.node 1 (.leaf 62155)
 (.leaf 62160)))
 (.node 2 (.node 1 (.leaf 62176)
 (.leaf 62215))
 (.node 1 (.leaf 62247)
 (.leaf 62258))))))
 (.node 16 (.node 8 (.node 4 (.node 2 (.node 1 (.leaf 62343)
 (.leaf 62360))
 (.node 1 (.leaf 62394)
 (.leaf 6286062394)))
 (.node 2 (.node 1 (.leaf 62587)
 (.leaf 62654))
 (.node 1 (.leaf 62683)
 (.leaf 62693))))
 (.node 4 (.node 2 (.node 1 (.leaf 62699)
 (.leaf 62705))
 (.node 1 (.leaf 62706)
 (.leaf 62841)))
 (.node 2 (.node 1 (.leaf 62860)
 (.leaf 63071))
 (.node 1 (.leaf 63104)
 (.leaf 63112)))))
 (.node 8 (.node 4 (.node 2 (.node 1 (.leaf 63116)
 (.leaf 6663363136))
 (.node 1 (.leaf 63152)
 (.leaf 63169)))
 (.node 2 (.node 1 (.leaf 63172)
 (.leaf 63203))
 (.node 1 (.leaf 63228)
 (.leaf 63275))))
 (.node 4 (.node 2 (.node 1 (.leaf 63358)
 (.leaf 63376))
 (.node 1 (.leaf 63453)
 (.leaf 63519)))
 (.node 2 (.node 1 (.leaf 63541)
 (.leaf 63586))
 (.node 1 (.leaf 6581263586)
 (.leaf 63683)))))))
 (.node 32 (.node 16 (.node 8 (.node 4 (.node 2 (.node 1 (.leaf 63731)
 (.leaf 63778))
 (.node 1 (.leaf 63803)
 (.leaf 63841)))
 (.node 2 (.node 1 (.leaf 63896)
 (.leaf 63996))
 (.node 1 (.leaf 64008)
 (.leaf 64053))))
 (.node 4 (.node 2 (.node 1 (.leaf 64054)
 (.leaf 64068))
 (.node 1 (.leaf 64069)
 (.leaf 64100)))
 (.node 2 (.node 1 (.leaf 64115)
 (.leaf 64250))
 (.node 1 (.leaf 64259)
 (.leaf 64283)))))
 (.node 8 (.node 4 (.node 2 (.node 1 (.leaf 64305)
 (.leaf 64484))
 (.node 1 (.leaf 64502)
 (.leaf 64505)))
 (.node 2 (.node 1 (.leaf 64522)
 (.leaf 64550))
 (.node 1 (.leaf 64562)
 (.leaf 64595))))
 (.node 4 (.node 2 (.node 1 (.leaf 64689)
 (.leaf 64695))
 (.node 1 (.leaf 64700)
 (.leaf 6619764727)))
 (.node 2 (.node 1 (.leaf 64734)
 (.leaf 64764))
 (.node 1 (.leaf 64808)
 (.leaf 64847))))))
 (.node 16 (.node 8 (.node 4 (.node 2 (.node 1 (.leaf 64858)
 (.leaf 64881))
 (.node 1 (.leaf 64882)
 (.leaf 65001)))
 (.node 2 (.node 1 (.leaf 65019)
 (.leaf 65031))
 (.node 1 (.leaf 65052)
 (.leaf 65130))))
 (.node 4 (.node 2 (.node 1 (.leaf 65142)
 (.leaf 65148))
 (.node 1 (.leaf 65149)
 (.leaf 6549965149)))
 (.node 2 (.node 1 (.leaf 65163)
 (.leaf 65180))
 (.node 1 (.leaf 65220)
 (.leaf 65248)))))
 (.node 8 (.node 4 (.node 2 (.node 1 (.leaf 65274)
 (.leaf 65294))
 (.node 1 (.leaf 65452)
 (.leaf 65512)))
 (.node 2 (.node 1 (.leaf 65513)
 (.leaf 65533))
 (.node 1 (.leaf 65586)
 (.leaf 65590))))
 (.node 4 (.node 2 (.node 1 (.leaf 65609)
 (.leaf 65623))
 (.node 1 (.leaf 65688)
 (.leaf 65699)))
 (.node 2 (.node 1 (.leaf 65703)
 (.leaf 65763))
 (.node 1 (.leaf 65775)
 (.leaf 65784))))))))
 (.node 32 (.node 16 (.node 8 (.node 4 (.node 2 (.node 1 (.leaf 65785)
 (.leaf 65787))
 (.node 1 (.leaf 65789)
 (.leaf 65812)))
 (.node 2 (.node 1 (.leaf 65845)
 (.leaf 65864))
 (.node 1 (.leaf 65894)
 (.leaf 65936))))
 (.node 4 (.node 2 (.node 1 (.leaf 65959)
 (.leaf 65960))
 (.node 1 (.leaf 65990)
 (.leaf 65992)))
 (.node 2 (.node 1 (.leaf 65994)
 (.leaf 66010))
 (.node 1 (.leaf 66063)
 (.leaf 66094)))))
 (.node 8 (.node 4 (.node 2 (.node 1 (.leaf 66184)
 (.leaf 66191))
 (.node 1 (.leaf 66207)
 (.leaf 66232)))
 (.node 2 (.node 1 (.leaf 66234)
 (.leaf 66366))
 (.node 1 (.leaf 66367)
 (.leaf 66392))))
 (.node 4 (.node 2 (.node 1 (.leaf 66402)
 (.leaf 66412))
 (.node 1 (.leaf 66428)
 (.leaf 66504)))
 (.node 2 (.node 1 (.leaf 66533)
 (.leaf 66603))
 (.node 1 (.leaf 66633)
 (.leaf 66654))))))
 (.node 16 (.node 8 (.node 4 (.node 2 (.node 1 (.leaf 66660)
 (.leaf 66664))
 (.node 1 (.leaf 66687)
 (.leaf 66709)))
 (.node 2 (.node 1 (.leaf 66712)
 (.leaf 66740))
 (.node 1 (.leaf 66760)
 (.leaf 66796))))
 (.node 4 (.node 2 (.node 1 (.leaf 66810)
 (.leaf 66833))
 (.node 1 (.leaf 66843)
 (.leaf 66862)))
 (.node 2 (.node 1 (.leaf 66938)
 (.leaf 66997))
 (.node 1 (.leaf 67081)
 (.leaf 67083)))))
 (.node 1 (.leaf 67109)
 (.leaf 67323))))))

end WG
