import Verif.Model.DataTree

/-! Generated by `tools/gen_startmonth.py`. -/

namespace WG

set_option maxRecDepth 100000

/-- For every row of the routing order the number of its reservoir in `startDataEra5` and `startDataW5e5` (9999: none), 64 rows to
a leaf with 4 digits each. -/
def startCert : DTree :=
 (.node 1024 (.node 512 (.node 256 (.node 128 (.node 64 (.node 32 (.node 16 (.node 8 (.node 4 (.node 2 (.node 1 (.leaf 9999999999999999999999999999999999999999999999999999999999999999999999999999999999999999999999999999999999999999999999999999999999999999999999999999999999999999999999999999999999999999999999999999999999999999999999999999999999999999999999999999999999999999)
 (.leaf 9999999999999999999999999999999999999999999999999999999999999999999999999999999999999999999999999999999999999999999999999999999999999999999999999999999999999999999999999999999999999999999999999999999999999999999999999999999999999999999999999999999999999999))
 (.node 1 (.leaf 9999999999999999999999999999999999999999999999999999999999999999999999999999999999999999999999999999999999999999999999999999999999999999999999999999999999999999999999999999999999999999999999999999999999999999999999999999999999999999999999999999999999999999)
 (.leaf 9999999999999999999999999999999999999999999999999999999999999999999999999999999999999999999999999999999999999999999999999999999999999999999999999999999999999999999999999999999999999999999999999999999999999999999999999999999999999999999999999999999999999999)))
 (.node 2 (.node 1 (.leaf 9999999999999999999999999999999999999999999999999999999999999999999999999999999999999999999999999999999999999999999999999999999999999999999999999999999999999999999999999999999999999999999999999999999999999999999999999999999999999999999999999999999999999999)
 (.leaf 9999999999999999999999999999999999999999999999999999999999999999999999999999999999999999999999999999999999999999999999999999999999999999999999999999999999999999999999999999999999999999999999999999999999999999999999999999999999999999999999999999999999999999))
 (.node 1 (.leaf 9999999999999999999999999999999999999999999999999999999999999999999999999999999999999999999999999999999999999999999999999999999999999999999999999999999999999999999999999999999999999999999999999999999999999999999999999999999999999999999999999999999999999999)
 (.leaf 9999999999999999999999999999999999999999999999999999999999999999999999999999999999999999999999999999999999999999999999999999999999999999999999999999999999999999999999999999999999999999999999999999999999999999999999999999999999999999999999999999999999999999))))
 (.node 4 (.node 2 (.node 1 (.leaf 9999999999999999999999999999999999999999999999999999999999999999999999999999999999999999999999999999999999999999999999999999999999999999999999999999999999999999999999999999999999999999999999999999999999999999999999999999999999999999999999999999999999999999)
 (.leaf 9999999999999999999999999999999999999999999999999999999999999999999999999999999999999999999999999999999999999999999999999999999999999999999999999999999999999999999999999999999999999999999999999999999999999999999999999999999999999999999999999999999999999999))
 (.node 1 (.leaf 9999999999999999999999999999999999999999999999999999999999999999999999999999999999999999999999999999999999999999999999999999999999999999999999999999999999999999999999999999999999999999999999999999999999999999999999999999999999999999999999999999999999999999)
 (.leaf 9999999999999999999999999999999999999999999999999999999999999999999999999999999999999999999999999999999999999999999999999999999999999999999999999999999999999999999999999999999999999999999999999999999999999999999999999999999999999999999999999999999999999999)))
 (.node 2 (.node 1 (.leaf 9999999999999999999999999999999999999999999999999999999999999999999999999999999999999999999999999999999999999999999999999999999999999999999999999999999999999999999999999999999999999999999999999999999999999999999999999999999999999999999999999999999999999999)
 (.leaf 9999999999999999999999999999999999999999999999999999999999999999999999999999999999999999999999999999999999999999999999999999999999999999999999999999999999999999999999999999999999999999999999999999999999999999999999999999999999999999999999999999999999999999))
 (.node 1 (.leaf 9999999999999999999999999999999999999999999999999999999999999999999999999999999999999999999999999999999999999999999999999999999999999999999999999999999999999999999999999999999999999999999999999999999999999999999999999999999999999999999999999999999999999999)
 (.leaf 9999999999999999999999999999999999999999999999999999999999999999999999999999999999999999999999999999999999999999999999999999999999999999999999999999999999999999999999999999999999999999999999999999999999999999999999999999999999999999999999999999999999999999)))))
 (.node 8 (.node 4 (.node 2 (.node 1 (.leaf 9999999999999999999999999999999999999999999999999999999999999999999999999999999999999999999999999999999999999999999999999999999999999999999999999999999999999999999999999999999999999999999999999999999999999999999999999999999999999999999999999999999999999999)
 (.leaf 9999999999999999999999999999999999999999999999999999999999999999999999999999999999999999999999999999999999999999999999999999999999999999999999999999999999999999999999999999999999999999999999999999999999999999999999999999999999999999999999999999999999999999))
 (.node 1 (.leaf 9999999999999999999999999999999999999999999999999999999999999999999999999999999999999999999999999999999999999999999999999999999999999999999999999999999999999999999999999999999999999999999999999999999999999999999999999999999999999999999999999999999999999999)
 (.leaf 9999999999999999999999999999999999999999999999999999999999999999999999999999999999999999999999999999999999999999999999999999999999999999999999999999999999999999999999999999999999999999999999999999999999999999999999999999999999999999999999999999999999999999)))
 (.node 2 (.node 1 (.leaf 9999999999999999999999999999999999999999999999999999999999999999999999999999999999999999999999999999999999999999999999999999999999999999999999999999999999999999999999999999999999999999999999999999999999999999999999999999999999999999999999999999999999999999)
 (.leaf 9999999999999999999999999999999999999999999999999999999999999999999999999999999999999999999999999999999999999999999999999999999999999999999999999999999999999999999999999999999999999999999999999999999999999999999999999999999999999999999999999999999999999999))
 (.node 1 (.leaf 9999999999999999999999999999999999999999999999999999999999999999999999999999999999999999999999999999999999999999999999999999999999999999999999999999999999999999999999999999999999999999999999999999999999999999999999999999999999999999999999999999999999999999)
 (.leaf 9999999999999999999999999999999999999999999999999999999999999999999999999999999999999999999999999999999999999999999999999999999999999999999999999999999999999999999999999999999999999999999999999999999999999999999999999999999999999999999999999999999999999999))))
 (.node 4 (.node 2 (.node 1 (.leaf 9999999999999999999999999999999999999999999999999999999999999999999999999999999999999999999999999999999999999999999999999999999999999999999999999999999999999999999999999999999999999999999999999999999999999999999999999999999999999999999999999999999999999999)
 (.leaf 9999999999999999999999999999999999999999999999999999999999999999999999999999999999999999999999999999999999999999999999999999999999999999999999999999999999999999999999999999999999999999999999999999999999999999999999999999999999999999999999999999999999999999))
 (.node 1 (.leaf 9999999999999999999999999999999999999999999999999999999999999999999999999999999999999999999999999999999999999999999999999999999999999999999999999999999999999999999999999999999999999999999999999999999999999999999999999999999999999999999999999999999999999999)
 (.leaf 9999999999999999999999999999999999999999999999999999999999999999999999999999999999999999999999999999999999999999999999999999999999999999999999999999999999999999999999999999999999999999999999999999999999999999999999999999999999999999999999999999999999999999)))
 (.node 2 (.node 1 (.leaf 9999999999999999999999999999999999999999999999999999999999999999999999999999999999999999999999999999999999999999999999999999999999999999999999999999999999999999999999999999999999999999999999999999999999999999999999999999999999999999999999999999999999999999)
 (.leaf 9999999999999999999999999999999999999999999999999999999999999999999999999999999999999999999999999999999999999999999999999999999999999999999999999999999999999999999999999999999999999999999999999999999999999999999999999999999999999999999999999999999999999999))
 (.node 1 (.leaf 9999999999999999999999999999999999999999999999999999999999999999999999999999999999999999999999999999999999999999999999999999999999999999999999999999999999999999999999999999999999999999999999999999999999999999999999999999999999999999999999999999999999999999)
 (.leaf 9999999999999999999999999999999999999999999999999999999999999999999999999999999999999999999999999999999999999999999999999999999999999999999999999999999999999999999999999999999999999999999999999999999999999999999999999999999999999999999999999999999999999999))))))
 (.node 16 (.node 8 (.node 4 (.node 2 (.node 1 (.leaf 9999999999999999999999999999999999999999999999999999999999999999999999999999999999999999999999999999999999999999999999999999999999999999999999999999999999999999999999999999999999999999999999999999999999999999999999999999999999999999999999999999999999999999)
 (.leaf 9999999999999999999999999999999999999999999999999999999999999999999999999999999999999999999999999999999999999999999999999999999999999999999999999999999999999999999999999999999999999999999999999999999999999999999999999999999999999999999999999999999999999999))
 (.node 1 (.leaf 9999999999999999999999999999999999999999999999999999999999999999999999999999999999999999999999999999999999999999999999999999999999999999999999999999999999999999999999999999999999999999999999999999999999999999999999999999999999999999999999999999999999999999)
 (.leaf 9999999999999999999999999999999999999999999999999999999999999999999999999999999999999999999999999999999999999999999999999999999999999999999999999999999999999999999999999999999999999999999999999999999999999999999999999999999999999999999999999999999999999999)))
 (.node 2 (.node 1 (.leaf 9999999999999999999999999999999999999999999999999999999999999999999999999999999999999999999999999999999999999999999999999999999999999999999999999999999999999999999999999999999999999999999999999999999999999999999999999999999999999999999999999999999999999999)
 (.leaf 9999999999999999999999999999999999999999999999999999999999999999999999999999999999999999999999999999999999999999999999999999999999999999999999999999999999999999999999999999999999999999999999999999999999999999999999999999999999999999999999999999999999999999))
 (.node 1 (.leaf 9999999999999999999999999999999999999999999999999999999999999999999999999999999999999999999999999999999999999999999999999999999999999999999999999999999999999999999999999999999999999999999999999999999999999999999999999999999999999999999999999999999999999999)
 (.leaf 9999999999999999999999999999999999999999999999999999999999999999999999999999999999999999999999999999999999999999999999999999999999999999999999999999999999999999999999999999999999999999999999999999999999999999999999999999999999999999999999999999999999999999))))
 (.node 4 (.node 2 (.node 1 (.leaf 9999999999999999999999999999999999999999999999999999999999999999999999999999999999999999999999999999999999999999999999999999999999999999999999999999999999999999999999999999999999999999999999999999999999999999999999999999999999999999999999999999999999999999)
 (.leaf 9999999999999999999999999999999999999999999999999999999999999999999999999999999999999999999999999999999999999999999999999999999999999999999999999999999999999999999999999999999999999999999999999999999999999999999999999999999999999999999999999999999999999999))
 (.node 1 (.leaf 9999999999999999999999999999999999999999999999999999999999999999999999999999999999999999999999999999999999999999999999999999999999999999999999999999999999999999999999999999999999999999999999999999999999999999999999999999999999999999999999999999999999999999)
 (.leaf 9999999999999999999999999999999999999999999999999999999999999999999999999999999999999999999999999999999999999999999999999999999999999999999999999999999999999999999999999999999999999999999999999999999999999999999999999999999999999999999999999999999999999999)))
 (.node 2 (.node 1 (.leaf 9999999999999999999999999999999999999999999999999999999999999999999999999999999999999999999999999999999999999999999999999999999999999999999999999999999999999999999999999999999999999999999999999999999999999999999999999999999999999999999999999999999999999999)
 (.leaf 9999999999999999999999999999999999999999999999999999999999999999999999999999999999999999999999999999999999999999999999999999999999999999999999999999999999999999999999999999999999999999999999999999999999999999999999999999999999999999999999999999999999999999))
 (.node 1 (.leaf 9999999999999999999999999999999999999999999999999999999999999999999999999999999999999999999999999999999999999999999999999999999999999999999999999999999999999999999999999999999999999999999999999999999999999999999999999999999999999999999999999999999999999999)
 (.leaf 9999999999999999999999999999999999999999999999999999999999999999999999999999999999999999999999999999999999999999999999999999999999999999999999999999999999999999999999999999999999999999999999999999999999999999999999999999999999999999999999999999999999999999)))))
 (.node 8 (.node 4 (.node 2 (.node 1 (.leaf 9999999999999999999999999999999999999999999999999999999999999999999999999999999999999999999999999999999999999999999999999999999999999999999999999999999999999999999999999999999999999999999999999999999999999999999999999999999999999999999999999999999999999999)
 (.leaf 9999999999999999999999999999999999999999999999999999999999999999999999999999999999999999999999999999999999999999999999999999999999999999999999999999999999999999999999999999999999999999999999999999999999999999999999999999999999999999999999999999999999999999))
 (.node 1 (.leaf 9999999999999999999999999999999999999999999999999999999999999999999999999999999999999999999999999999999999999999999999999999999999999999999999999999999999999999999999999999999999999999999999999999999999999999999999999999999999999999999999999999999999999999)
 (.leaf 9999999999999999999999999999999999999999999999999999999999999999999999999999999999999999999999999999999999999999999999999999999999999999999999999999999999999999999999999999999999999999999999999999999999999999999999999999999999999999999999999999999999999999)))
 (.node 2 (.node 1 (.leaf 9999999999999999999999999999999999999999999999999999999999999999999999999999999999999999999999999999999999999999999999999999999999999999999999999999999999999999999999999999999999999999999999999999999999999999999999999999999999999999999999999999999999999999)
 (.leaf 9999999999999999999999999999999999999999999999999999999999999999999999999999999999999999999999999999999999999999999999999999999999999999999999999999999999999999999999999999999999999999999999999999999999999999999999999999999999999999999999999999999999999999))
 (.node 1 (.leaf 9999999999999999999999999999999999999999999999999999999999999999999999999999999999999999999999999999999999999999999999999999999999999999999999999999999999999999999999999999999999999999999999999999999999999999999999999999999999999999999999999999999999999999)
 (.leaf 9999999999999999999999999999999999999999999999999999999999999999999999999999999999999999999999999999999999999999999999999999999999999999999999999999999999999999999999999999999999999999999999999999999999999999999999999999999999999999999999999999999999999999))))
 (.node 4 (.node 2 (.node 1 (.leaf 9999999999999999999999999999999999999999999999999999999999999999999999999999999999999999999999999999999999999999999999999999999999999999999999999999999999999999999999999999999999999999999999999999999999999999999999999999999999999999999999999999999999999999)
 (.leaf 9999999999999999999999999999999999999999999999999999999999999999999999999999999999999999999999999999999999999999999999999999999999999999999999999999999999999999999999999999999999999999999999999999999999999999999999999999999999999999999999999999999999999999))
 (.node 1 (.leaf 9999999999999999999999999999999999999999999999999999999999999999999999999999999999999999999999999999999999999999999999999999999999999999999999999999999999999999999999999999999999999999999999999999999999999999999999999999999999999999999999999999999999999999)
 (.leaf 9999999999999999999999999999999999999999999999999999999999999999999999999999999999999999999999999999999999999999999999999999999999999999999999999999999999999999999999999999999999999999999999999999999999999999999999999999999999999999999999999999999999999999)))
 (.node 2 (.node 1 (.leaf 9999999999999999999999999999999999999999999999999999999999999999999999999999999999999999999999999999999999999999999999999999999999999999999999999999999999999999999999999999999999999999999999999999999999999999999999999999999999999999999999999999999999999999)
 (.leaf 9999999999999999999999999999999999999999999999999999999999999999999999999999999999999999999999999999999999999999999999999999999999999999999999999999999999999999999999999999999999999999999999999999999999999999999999999999999999999999999999999999999999999999))
 (.node 1 (.leaf 9999999999999999999999999999999999999999999999999999999999999999999999999999999999999999999999999999999999999999999999999999999999999999999999999999999999999999999999999999999999999999999999999999999999999999999999999999999999999999999999999999999999999999)
 (.leaf 9999999999999999999999999999999999999999999999999999999999999999999999999999999999999999999999999999999999999999999999999999999999999999999999999999999999999999999999999999999999999999999999999999999999999999999999999999999999999999999999999999999999999999)))))))
 (.node 32 (.node 16 (.node 8 (.node 4 (.node 2 (.node 1 (.leaf 9999999999999999999999999999999999999999999999999999999999999999999999999999999999999999999999999999999999999999999999999999999999999999999999999999999999999999999999999999999999999999999999999999999999999999999999999999999999999999999999999999999999999999)
 (.leaf 9999999999999999999999999999999999999999999999999999999999999999999999999999999999999999999999999999999999999999999999999999999999999999999999999999999999999999999999999999999999999999999999999999999999999999999999999999999999999999999999999999999999999999))
 (.node 1 (.leaf 9999999999999999999999999999999999999999999999999999999999999999999999999999999999999999999999999999999999999999999999999999999999999999999999999999999999999999999999999999999999999999999999999999999999999999999999999999999999999999999999999999999999999999)
 (.leaf 9999999999999999999999999999999999999999999999999999999999999999999999999999999999999999999999999999999999999999999999999999999999999999999999999999999999999999999999999999999999999999999999999999999999999999999999999999999999999999999999999999999999999999)))
 (.node 2 (.node 1 (.leaf 9999999999999999999999999999999999999999999999999999999999999999999999999999999999999999999999999999999999999999999999999999999999999999999999999999999999999999999999999999999999999999999999999999999999999999999999999999999999999999999999999999999999999999)
 (.leaf 9999999999999999999999999999999999999999999999999999999999999999999999999999999999999999999999999999999999999999999999999999999999999999999999999999999999999999999999999999999999999999999999999999999999999999999999999999999999999999999999999999999999999999))
 (.node 1 (.leaf 9999999999999999999999999999999999999999999999999999999999999999999999999999999999999999999999999999999999999999999999999999999999999999999999999999999999999999999999999999999999999999999999999999999999999999999999999999999999999999999999999999999999999999)
 (.leaf 9999999999999999999999999999999999999999999999999999999999999999999999999999999999999999999999999999999999999999999999999999999999999999999999999999999999999999999999999999999999999999999999999999999999999999999999999999999999999999999999999999999999999999))))
 (.node 4 (.node 2 (.node 1 (.leaf 9999999999999999999999999999999999999999999999999999999999999999999999999999999999999999999999999999999999999999999999999999999999999999999999999999999999999999999999999999999999999999999999999999999999999999999999999999999999999999999999999999999999999999)
 (.leaf 9999999999999999999999999999999999999999999999999999999999999999999999999999999999999999999999999999999999999999999999999999999999999999999999999999999999999999999999999999999999999999999999999999999999999999999999999999999999999999999999999999999999999999))
 (.node 1 (.leaf 9999999999999999999999999999999999999999999999999999999999999999999999999999999999999999999999999999999999999999999999999999999999999999999999999999999999999999999999999999999999999999999999999999000099999999000199999999999999999999999999999999999999999999)
 (.leaf 9999999999999999999999999999999999999999999999999999999999999999999999999999999999999999999999999999999999999999999999999999999999999999999999999999999999999999999999999999999999999999999999999999999999999999999999999999999999999999999999999999999999999999)))
 (.node 2 (.node 1 (.leaf 9999999999999999999999999999999999999999999999999999999999999999999999999999999999999999999999999999999999999999999999999999999999999999999999999999999999999999999999999999999999999999999999999999999999999999999999999999999999999999999999999999999999999999)
 (.leaf 9999999999999999999999999999999999999999999999999999999999999999999999999999999999999999999999999999999999999999999999999999999999999999999999999999999999999999999999999999999999999999999999999999999999999999999999999999999999999999999999999999999999999999))
 (.node 1 (.leaf 9999999999999999999999999999000299999999000399999999999999999999999999999999999999999999999999999999999999999999999999999999999999999999999999999999999999999999999999999999999999999999999999999999999999999999999999999999999999999999999999999999999999999999)
 (.leaf 9999999999999999999999999999999999999999999999999999999999999999999999999999999999999999999999999999999999999999999999999999999999999999999999999999999999999999999999999999999999999999999999999999999999999999999999999999999999999999999999999999999999999999)))))
 (.node 8 (.node 4 (.node 2 (.node 1 (.leaf 9999999999999999999999999999999999999999999999999999999999999999999999999999999999999999999999999999999999999999999999999999999999999999999999999999999999999999999999999999999999999999999999999999999999999999999999999999999999999999999999999999999999999999)
 (.leaf 9999999999999999999999999999999999999999999999999999999999999999999999999999999999999999999999999999999999999999999999999999999999999999999999999999999999999999999999999999999999999999999999999999999999999999999999999999999999999999999999999999999999999999))
 (.node 1 (.leaf 9999999999999999999999999999999999999999999999999999999999999999999999999999999999999999999999999999999999999999999999999999999999999999999999999999999999999999999999999999999999999999999999999999999999999999999999999999999999999999999999999999999999999999)
 (.leaf 9999999999999999999999999999999999999999999999999999999999999999999999999999999999999999999999999999999999999999999999999999999999999999999999999999999999999999999999999999999999999999999999999999999999999999999999999999999999999999999999999999999999999999)))
 (.node 2 (.node 1 (.leaf 9999999999999999999999999999999999999999999999999999999999999999999999999999999999999999999999999999999999999999999999999999999999999999999999999999999999999999999999999999999999999999999999999999999999999999999999999999999999999999999999999999999999999999)
 (.leaf 9999999999999999999999999999999999999999999999999999999999999999999999999999999999999999999999999999999999999999999999999999999999999999999999999999999999999999999999999999999999999999999999999999999999999999999999999999999999999999999999999999999999999999))
 (.node 1 (.leaf 9999999999999999999999999999999999999999999999999999999999999999999999999999999999999999999999999999999999999999999999999999999999999999999999999999999999999999999999999999999999999999999999999999999999999999999999999999999999999999999999999999999999999999)
 (.leaf 9999999999999999999999999999999999999999999999999999999999999999999999999999999999999999999999999999999999999999999999999999999999999999999999999999999999999999999999999999999999999999999999999999999999999999999999999999999999999999999999999999999999999999))))
 (.node 4 (.node 2 (.node 1 (.leaf 9999999999999999999999999999999999999999999999999999999999999999999999999999999999999999999999999999999999999999999999999999999999999999999999999999999999999999999999999999999999999999999999999999999999999999999999999999999999999999999999999999999999999999)
 (.leaf 9999999999999999999999999999999999999999999999999999999999999999999999999999999999999999999999999999999999999999999999999999999999999999999999999999999999999999999999999999999999999999999999999999999999999999999999999999999999999999999999999999999999999999))
 (.node 1 (.leaf 9999999999999999999999999999999999999999999999999999999999999999999999999999999999999999999999999999999999999999999999999999999999999999999999999999999999999999999999999999999999999999999999999999999999999999999999999999999999999999999999999999999999999999)
 (.leaf 9999999999999999999999999999999999999999999999999999999999999999999999999999999999999999999999999999999999999999999999999999999999999999999999999999999999999999999999999999999999999999999999999999999999999999999999999999999999999999999999999999999999999999)))
 (.node 2 (.node 1 (.leaf 9999999999999999999999999999999999999999999999999999999999999999999999999999999999999999999999999999999999999999999999999999999999999999999999999999999999999999999999999999999999999999999999999999999999999999999999999999999999999999000499999999999999990005)
 (.leaf 9999999999999999999999999999999999999999999999999999999999999999999999999999999999999999999999999999999999999999999999999999999999999999999999999999999999999999999999999999999999999999999999999999999999999999999999999999999999999999999999999999999999999999))
 (.node 1 (.leaf 9999999999999999999999999999999999999999999999999999999999999999999999999999999999999999999999999999999999999999999999999999999999999999999999999999999999999999999999999999999999999999999999999999999999999999999999999999999999999999999999999999999999999999)
 (.leaf 9999999999999999999999999999999999999999999999999999999999999999999999999999999999999999999999999999999999999999999999999999999999999999999999999999999999999999999999999999999999999999999999999999999999999999999999999999999999999999999999999999999999999999))))))
 (.node 16 (.node 8 (.node 4 (.node 2 (.node 1 (.leaf 9999999999999999999999999999999999999999999999990006999999999999999999999999999999999999999999999999999999999999999999999999999999999999999999999999999999999999999999999999999999999999999999999999999999999999999999999999999999999999999999999999999999999999)
 (.leaf 9999999999999999999999999999999999999999999999999999999999999999999999999999999999999999999999999999999999999999999999999999999999999999999999999999999999999999999999999999999999999999999999999999999999999999999999999999999999999999999999999999999999999999))
 (.node 1 (.leaf 9999999999999999999999999999999999999999999999999999999999999999999999999999999999999999999999999999999999999999999999999999999999999999999999999999999999999999999999999999999999999999999999999999999999999999999999999999999999999999999999999999999999999999)
 (.leaf 9999999999999999999999999999999999999999999999999999999999999999999999999999999999999999999999999999999999999999999999999999999999999999999999999999999999999999999999999999999999999999999999999999999999999999999999999999999999999999999999999999999999999999)))
 (.node 2 (.node 1 (.leaf 9999000799999999999999999999999999999999999999999999999999999999999999999999999999999999999999999999999999999999999999999999999999999999999999999999999999999999999999999999999999999999999999999999999999999999999999999999999999999999999999999999999999999999)
 (.leaf 9999999999999999999999999999999999999999999999999999999999999999999999999999999999999999999999999999999999999999999999999999999999999999999999999999999999999999999999999999999999999999999999999999999999999999999999999999999999999999999999999999999999999999))
 (.node 1 (.leaf 9999999999999999999999999999999999999999999999999999999999999999999999999999999999999999999999999999999999999999999999999999999999999999999999999999999999999999999999999999999999999999999999999999999999999999999999999999999999999999999999999999999999999999)
 (.leaf 9999999999999999999999999999999999999999999999999999999999999999999999999999999999999999999999999999999999999999999999999999999999999999999999999999999999990008999999999999999999999999999999999999999999999999999999999999999999999999999999999999999999999999))))
 (.node 4 (.node 2 (.node 1 (.leaf 9999999999999999999999999999999999999999999999999999999999999999999999999999999999999999999999999999999999999999999999999999999999999999999999999999999999999999999999999999999999999999999999999999999999999999999999999999999999999999999999999999999999999999)
 (.leaf 9999999999999999999999999999999999999999999999999999999999999999999999999999999999999999999999999999999999999999999999999999999999999999999999999999999999999999999999999999999999999999999999999999999999999999999999999999999999999999999999999999999999999999))
 (.node 1 (.leaf 9999999999999999999999999999999999999999999999999999999999999999999999999999999999999999999999999999999999999999999999999999999999999999999999999999999999999999999999999999999999999999999999999999999999999999999999999999999999999999999999999999999999999999)
 (.leaf 9999999999999999999999999999999999999999999999999999000999999999999999999999999999999999999999999999999999999999999999999999999999999999999999999999999999999999999999999999999999999999999999999999999999999999999999999999999999999999999999999999999999999999)))
 (.node 2 (.node 1 (.leaf 9999999999999999999999999999999999999999999999999999999999999999999999999999999999999999999999999999999999999999999999999999999999999999999999999999999999999999999999999999999999999999999999999999999999999999999999999999999999999999999999999999999999999999)
 (.leaf 9999999999999999999999999999999999999999999999999999999999999999999999999999999999999999999999999999999999999999999999999999999999999999999999999999999999999999999999999999999999999999999999999999999999999999999999999999999999999999999999999999999999999999))
 (.node 1 (.leaf 9999999999999999999999999999999999999999999999999999999999999999999999999999999999999999999999999999999999999999999999999999999999999999999999999999999999999999999999999999999999999999999999999999999999999999999999999999999999999999999999999999999999999999)
 (.leaf 9999999999999999999999999999999999999999999999999999999999999999999999999999999999999999999999999999999999999999999999999999999999999999999999999999999999999999999999999999999999999999999999999999999999999999999999999999999999999999999999999999999999999999)))))
 (.node 8 (.node 4 (.node 2 (.node 1 (.leaf 9999999999999999999999999999999999999999999999999999999999999999999999999999999999999999999999999999999999999999999999999999999999999999999999999999999999999999999999999999999999999999999999999999999999999999999999999999999999999999999999999999999999999999)
 (.leaf 9999999999999999999999999999999999999999999999999999999999999999999999999999999999999999999999999999999999999999999999999999999999999999999999999999999999999999999999999999999999999999999999999999999999999999999999999999999999999999999999999999999999999999))
 (.node 1 (.leaf 9999999999999999999999999999999999999999999999999999999999999999999999999999999999999999999999999999999999999999999999999999999999999999999999999999999999999999999999999999999999999999999999999999999999999999999999999999999999999999999999999999999999999999)
 (.leaf 9999999999999999999999999999999999999999999999999999999999999999999999999999999999999999999999999999999999999999999999999999999999999999999999999999999999999999999999999999999999999999999999999999999999999999999999999999999999999999999999999999999999999999)))
 (.node 2 (.node 1 (.leaf 9999999999999999999999999999999999999999999999999999999999999999999999999999999999999999999999999999999999999999999999999999999999999999999999999999999999999999999999999999999999999999999999999999999999999999999999999999999999999999999999999999999999999999)
 (.leaf 9999999999999999999999999999999999999999999999999999999999999999999999999999999999999999999999999999999999999999999999999999999999999999999999999999999999999999999999999999999999999999999999999999999999999999999999999999999999999999999999999999999999999999))
 (.node 1 (.leaf 9999999999999999999999999999999999999999999999999999999999999999999999999999999999999999999999999999999999999999999999999999999999999999999999999999999999999999999999999999999999999999999999999999999999999999999999999999999999999999999999999999999999999999)
 (.leaf 9999999999999999999999999999999999999999999999999999999999999999999999999999999999999999999999999999999999999999999999999999999999999999999999999999999999999999999999999999999999999999999999999999999999999999999999999999999999999999999999999999999999999999))))
 (.node 4 (.node 2 (.node 1 (.leaf 9999999999999999999999999999999999999999999999999999999999999999999999999999999999999999999999999999999999999999999999999999999999999999999999999999999999999999999999999999999900100011999999999999999999999999999999999999999999999999999999999999999999999999)
 (.leaf 9999999999999999999999999999999999999999999999999999999999999999999999999999999999999999999999999999999999999999999999999999999999999999999999999999999999999999999999999999999999999999999999999999999999999999999999999999999999999999999999999999999999999999))
 (.node 1 (.leaf 9999999999999999999999999999999999999999999999999999999999999999999999999999999999999999999999999999999999999999999999999999999999999999999999999999999999999999999999999999999999999999999999999999999999999999999999999999999999999999999999999999999999999999)
 (.leaf 9999999999999999999999999999999999999999999999999999999999999999999999999999999999999999999999999999999999999999999999999999999999999999999999999999999999999999999999999999999999999999999999999999999999999999999999999999999999999999999999999999999999999999)))
 (.node 2 (.node 1 (.leaf 9999999999999999999999999999999999999999999999999999999999999999999999999999999999999999999999999999999999999999999999999999999999999999999999999999999999999999999999999999999999999999999999999999999999999999999999999999999999999999999999999999999999999999)
 (.leaf 9999999999999999999999999999999999999999999999999999999999999999999999999999999999999999999999999999999999999999999999999999999999999999999999999999999999999999999999999999999999999999999999999999999999999999999999999999999999999999999999999999999999999999))
 (.node 1 (.leaf 9999999999999999999999999999999999999999999999999999999999999999999999999999999999999999999999999999999999999999999999999999999999999999999999999999999999999999999999999999999999999999999999999999999999999999999999999999999999999999999999999999999999999999)
 (.leaf 9999999999999999999999999999999999999999999999999999999999999999999999990012001399999999999999999999999999999999999999999999999999999999999999999999999999999999999999999999999999999999999999999999999999999999999999999999999999999999999999999999999999999999))))))))
 (.node 64 (.node 32 (.node 16 (.node 8 (.node 4 (.node 2 (.node 1 (.leaf 9999999999999999999999999999999999999999999999999999999999999999999999999999999999999999999999999999999999999999999999999999999999999999999999999999999999999999999999999999999999999999999999999999999999999999999999999999999999999999999999999999999999999999)
 (.leaf 9999999999999999999999999999999999999999999999999999999999999999999999999999999999999999999999999999999999999999999999999999999999999999999999999999999999999999999999999999999999999999999999999999999999999999999999999999999999999999999999999999999999999999))
 (.node 1 (.leaf 9999999999999999999999999999999999999999999900149999999999999999999999999999999999999999999999999999999999999999999999999999999999999999999999999999999999999999999999999999999999999999999999999999999999999999999999999999999999999999999999999999999999999999)
 (.leaf 9999999999999999999999999999999999999999999999999999999999999999999999999999999999999999999999999999999999999999999999999999999999999999999999999999999999999999999999999999999999999999999999999999999999999999999999999999999999999999999999999999999999999999)))
 (.node 2 (.node 1 (.leaf 9999999999999999999999999999999999999999999999999999999999999999999999999999999999999999999999999999999999999999999999999999999999999999999999999999999999999999999999999999999999999999999999999999999999999999999999999999999999999999999999999999999999999999)
 (.leaf 9999999999999999001599999999999999999999999999999999999999999999999999999999999999999999999999999999999999999999999999999999999999999999999999999999999999999999999999999999999999999999999999999999999999999999999999999999999999999999999999999999999999999999))
 (.node 1 (.leaf 9999999999999999999999999999999999999999999999999999999999999999999999999999999999999999999999999999999999999999999999999999999999999999999999999999999999999999999999999999999999999999999999999999999999999999999999999999999999999999999999999999999999999999)
 (.leaf 9999999999999999999999999999999999999999999999999999999999999999999999999999999999999999999999999999999999999999999999999999999999999999999999999999999999999999999999999999999999999999999999999999999999999999999999999999999999999999999999999999999999999999))))
 (.node 4 (.node 2 (.node 1 (.leaf 9999999999999999999999999999999999999999999999999999999999999999999999999999999999999999999999999999999999999999999999999999999999999999999999999999999999999999999999999999999999999999999999999999999999999999999999999999999999999999999999999999999999999999)
 (.leaf 9999999999999999999999999999999999999999999999999999999999999999999999999999999999999999999999999999999999999999999999999999999999999999999999999999999999999999999999999999999999999999999999999999999999999999999999999999999999999999999999999999999999999999))
 (.node 1 (.leaf 9999999999999999999999999999999999999999999999999999999999999999999999999999999999999999999999999999999999999999999999999999999999999999999999999999999999999999999999999999999999999999999999999999999999999999999999999999999999999999999999999999999999999999)
 (.leaf 9999999999999999999999999999999999999999999999999999999999999999999999999999999999999999999999999999999999999999999999999999999999999999999999999999999999999999999999999999999999999999999999999999999999999999999999999999999999999999999999999999999999999999)))
 (.node 2 (.node 1 (.leaf 9999999999999999999999999999999999999999999999999999999999999999999999999999999999999999999999999999999999999999999999999999999999999999999999999999999999999999999999999999999999999999999999999999999999999999999999999999999999999999999999999999999999999999)
 (.leaf 9999999999999999999999999999999900169999999999999999999999999999999999999999999999999999999999999999999999999999999999999999999999999999999999999999999999999999999999999999999999999999999999999999999999999999999999999999999999999999999999999999999999999999))
 (.node 1 (.leaf 9999999999999999999999999999999999999999999999999999999999999999999999999999999999999999999999999999999999999999999999999999999999999999999999999999999999999999999999999999999999999999999999999999999999999999999999999999999999999999999999999999999999999999)
 (.leaf 9999999999999999999999999999999999999999999999999999999999999999999999999999999999999999999999999999999999999999999999999999999999999999999999999999999999999999999999999999999999999999999999999999999999999999999999999999999999999999999999999999999999999999)))))
 (.node 8 (.node 4 (.node 2 (.node 1 (.leaf 9999999999999999999999999999999999999999999999999999999999999999999999999999999999999999999999999999999999999999999999999999999999999999999999999999999999999999999999999999999999999999999999999999999999999999999999999999999999999999999999999999999999999999)
 (.leaf 9999999999999999999999999999999999999999999999999999999999999999999999999999999999999999999999999999999999999999999999999999999999999999999999999999999999999999999999999999999999999999999999999999999999999999999999999999999999999999999999999999999999999999))
 (.node 1 (.leaf 9999999999999999999999999999999999999999999999999999999999999999999999999999999999999999999999999999999999999999999999999999999999999999999999999999999999999999999999999999999999999999999999999999999999999999999999999999999999999999999999999999999999999999)
 (.leaf 9999999999999999999999999999999999999999999999999999999999999999999999999999999999999999999999999999999999999999999999999999999999999999999999999999999999999999999999999999999999999999999999999999999999999999999999999999999999999999999999999999999999999999)))
 (.node 2 (.node 1 (.leaf 9999999999999999999999999999999999999999999999999999999999999999999999999999999999999999999999999999999999999999999999999999999999999999999999999999999999999999999999999999999999999999999999999999999999999999999999999999999999999999999999999999999999999999)
 (.leaf 9999999999999999999999999999999999999999999999999999999999999999999999999999999999999999999999999999999999999999999999999999999999999999999999999999999999999999999999999999999999999999999999999999999999999999999999999999999999999999999999999999999999999999))
 (.node 1 (.leaf 9999999999999999999999999999999999999999999999999999999999999999999999999999999999999999999999999999999999999999999999999999999999999999999999999999999999999999999999999999999999999999999999999999999999999999999999999999999999999999999999999999999999999999)
 (.leaf 9999999999999999999999999999999999999999999999999999999999999999999999999999999999999999999999999999999999999999999999999999999999999999999999999999999999999999999999999999999999999999999999999999999999999999999999999999999999999999999999999999999999999999))))
 (.node 4 (.node 2 (.node 1 (.leaf 9999999999999999999999999999999999999999999999999999999999999999999999999999999999999999999999999999999999999999999999999999999999999999999999999999999999999999999999999999999999999999999999999999999999999999999999999999999999999999999999999999999999999999)
 (.leaf 9999999999999999999999999999999999999999999999999999999999999999999999999999999999999999999999999999999999999999999999999999999999999999999999999999999999999999999999999999999999999999999999999999999999999999999999999999999999999999999999999999999999999999))
 (.node 1 (.leaf 9999999999999999999999999999999999999999999999999999999999999999999999999999999999999999999999999999999999999999999999999999999999999999999999999999999999999999999999999999999999999999999999999999999999999999999999999999999999999999999999999999999999999999)
 (.leaf 9999999999999999999999999999999999999999999999999999999999999999999999999999999900179999999999999999999999999999999999999999999999999999999999999999999999999999999999999999999999999999999999999999999999999999999999999999999999999999999999999999999999999999)))
 (.node 2 (.node 1 (.leaf 9999999999999999999999999999999999999999999999999999999999999999999999999999999999999999999999999999999999999999999999999999999999999999999999999999999999999999999999999999999999999999999999999999999999999999999999999999999999999999999999999999999999999999)
 (.leaf 9999999999999999999999999999999999999999999999999999999999999999999999999999999999999999999999999999999999999999999999999999999999999999999999999999999999999999999999999999999999999999999999999999999999999999999999999999999999999999999999999999999999999999))
 (.node 1 (.leaf 9999999999999999999999999999999999999999999999999999999999999999999999999999999999999999999999999999999999999999999999999999999999999999999999999999999999999999999999999999999999999999999999999999999999999999999999999999999999999999999999999999999999999999)
 (.leaf 9999999999999999999999999999999999999999999999999999999999999999999999999999999999999999999999999999999999999999999999999999999999999999999999999999999999999999999999999999999999999999999999999999999999999999999999999999999999999999999999999999999999999999))))))
 (.node 16 (.node 8 (.node 4 (.node 2 (.node 1 (.leaf 9999999999999999999999999999999999999999999999999999999999999999999999999999999999999999999999999999999999999999999999999999999999999999999999999999999999999999999999999999999999999999999999999999999999999999999999999999999999999999999999999999999999999999)
 (.leaf 9999999999999999999999999999999999999999999999999999999999999999999999999999999999999999999999999999999999999999999999999999999999999999999999999999999999999999999999999999999999999999999999999999999999999999999999999999999999999999999999999999999999999999))
 (.node 1 (.leaf 9999999999999999999999999999999999999999999999999999999999999999999999999999999999999999999999999999999999999999999999999999999999999999999999999999999999999999999999999999999999999999999999999999999999999999999999999999999999999999999999999999999999999999)
 (.leaf 9999999999999999999999999999999999999999999999999999999999999999999999999999999999999999999999999999999999999999999999999999999999999999999999999999999999999999999999999999999999999999999999999999999999999999999999999999999999999999999999999999999999999999)))
 (.node 2 (.node 1 (.leaf 9999999999999999999999999999999999999999999999999999999999999999999999999999999999999999999999999999999999999999999999999999999999999999999999999999999999999999999999999999999999999999999999999999999999999999999999999999999999999999999999999999999999999999)
 (.leaf 9999999999999999999999999999999999999999999999999999999999999999999999999999999999999999999999999999999999999999999999999999999999999999999999999999999999999999999999999999999999999999999999999999999999999999999999999999999999999999999999999999999999999999))
 (.node 1 (.leaf 9999999999999999999999999999999999999999999999999999999999999999999999999999999999999999999999999999999999999999999999999999999999999999999999999999999999999999999999999999999999999999999999999999999999999999999999999999999999999999999999999999999999999999)
 (.leaf 9999999999999999999999999999999999999999999999999999999999999999999999999999999999999999999999999999999999999999999999999999999999999999999999999999999999999999999999999999999999999999999999999999999999999999999999999999999999999999999999999999999999999999))))
 (.node 4 (.node 2 (.node 1 (.leaf 9999999999999999999999999999999999999999999999999999999999999999999999999999999999999999999999999999999999999999999999999999999999999999999999999999999999999999999999999999999999999999999999999999999999999999999999999999999999999999999999999999999999999999)
 (.leaf 9999999999999999999999999999999999999999999999999999999999999999999999999999999999999999999999999999999999999999999999999999999999999999999999999999999999999999999999999999999999999999999999999999999999999999999999999999999999999999999999999999999999999999))
 (.node 1 (.leaf 9999999999999999999999999999999999999999999999999999999999999999999999999999999999999999999999999999999999999999999999999999999999999999999999999999999999999999999999999999999999999999999999999999999999999999999999999999999999999999999999999999999999999999)
 (.leaf 9999999999999999999999999999999999999999999999999999999999999999999999999999999999999999999999999999999999999999999999999999999999999999999999999999999999999999999999999999999999999999999999999999999999999999999999999999999999999999999999999999999999999999)))
 (.node 2 (.node 1 (.leaf 9999999999999999999999999999999999999999999999999999999999999999999999999999999999999999999999999999999999999999999999999999999999999999999999999999999999999999999999999999999999999999999999999999999999999999999999999999999999999999999999999999999999999999)
 (.leaf 9999999999999999999999999999999999999999999999999999999999999999999999999999999999999999999999999999999999999999999999999999999999999999999999999999999999999999999999999999999999999999999999999999999999999999999999999999999999999999999999999999999999999999))
 (.node 1 (.leaf 9999999999999999999999999999999999999999999999999999999999999999999999999999999999999999999999999999999999999999999999999999999999999999999999999999999999999999999999999999999999999999999999999999999999999999999999999999999999999999999999999999999999999999)
 (.leaf 9999999999999999999999999999999999999999999999999999999999999999999999999999999999999999999999999999999999999999999999999999999999999999999999999999999999999999999999999999999999999999999999999999999999999999999999999999999999999999999999999999999999999999)))))
 (.node 8 (.node 4 (.node 2 (.node 1 (.leaf 9999999999999999999999999999999999999999999999999999999999999999999999999999999999999999999999999999999999999999999999999999999999999999999999999999999999999999999999999999999999999999999999999999999999999999999999999999999999999999999999999999999999999999)
 (.leaf 9999999999999999999999999999999999999999999999999999999999999999999999999999999999999999999999999999999999999999999999999999999999999999999999999999999999999999999999999999999999999999999999999999999999999999999999999999999999999999999999999999999999999999))
 (.node 1 (.leaf 9999999999999999999999999999999999999999999999999999999999990018999900199999999999999999999999999999999999999999999999999999999999999999999999999999999999999999999999999999999999999999999999999999999999999999999999999999999999999999999999999999999999999999)
 (.leaf 9999999999999999999999999999999999999999999999999999999999999999999999999999999999999999999999999999999999999999999999999999999999999999999999999999999999999999999999999999999999999999999999999999999999999999999999999999999999999999999999999999999999999999)))
 (.node 2 (.node 1 (.leaf 9999999999999999999999999999999999999999999999999999999999999999999999999999999999999999999999999999999999999999999999999999999999999999999999999999999999999999999999999999999999999999999999999999999999999999999999999999999999999999999999999999999999999999)
 (.leaf 9999999999999999999999999999999999999999999999999999999999999999999999999999999999999999999999999999999900209999999999999999999999999999999999999999999999999999999999999999999999999999999999999999999999999999999999999999999999999999999999999999999999999999))
 (.node 1 (.leaf 9999999999999999999999999999999900219999999999999999999999999999999999999999999999999999999999999999999999999999999999999999999999999999999999999999999999999999999999999999999999999999999999999999999999999999999999999999999999999999999999999999999999999999)
 (.leaf 9999999999999999999999999999999999999999999999999999999999999999999999999999999999999999999999999999999999999999999999999999999999999999999999999999999999999999999999999999999999999999999999999999999999999999999999999999999999999999999999990022999900239999))))
 (.node 4 (.node 2 (.node 1 (.leaf 9999999999999999999999999999999999999999999999999999999999999999999999999999999999999999999999999999999999999999999999999999999999999999999999999999999999999999999999999999999999999999999999999999999999999999999999999999999999999999999999999999999999999999)
 (.leaf 9999999999999999999999999999999999999999999999999999999999999999999999999999999999999999999999999999999999999999999999999999999999999999999999999999999999999999999999999999999999999999999999999999999999999999999999999999999999999999999999999999999999999999))
 (.node 1 (.leaf 9999999999999999999999999999999999999999999999999999999999999999999999999999999999999999999999999999999999999999999999999999999999999999999999999999999999999999999999999999999999999999999999999999999999999999999999999999999999999999999999999999999999999999)
 (.leaf 9999999999999999999999999999999999999999999999999999999999999999999999999999999999999999999999999999999999999999999999999999999999999999999999999999999999999999999999999999999999999999999999999999999999999999999999999999999999999999999999999999999999999999)))
 (.node 2 (.node 1 (.leaf 9999999999999999999999999999999999999999999999999999999999999999999999999999999999999999999999999999999999999999999999999999999999999999999999999999999999999999999999999999999999999999999999999999999999999999999999999999999999999999999999999999999999999999)
 (.leaf 9999999999999999999999999999999999999999999999999999999999999999999999999999999999999999999999999999999999999999999999999999999999999999999999999999999999999999999999999999999999999999999999999999999999999999999999999999999999999999999999999999999999999999))
 (.node 1 (.leaf 9999999999999999002499999999999999999999999999999999999999999999999999999999999999999999999999999999999999999999999999999999999999999999999999999999999999999999999999999999999999999999999999990025999999999999999999999999999999999999999999999999999999999999)
 (.leaf 9999999999999999999999999999999999999999999999999999999999999999999999999999999999999999999999999999999999999999999999999999999999999999999999999999999999999999999999999999999999999999999999999999999999999999999999999999999999999999999999999999999999999999)))))))
 (.node 32 (.node 16 (.node 8 (.node 4 (.node 2 (.node 1 (.leaf 9999999999999999999999999999999999999999999999999999999999999999999999999999999999999999999999999999999999999999999999999999999999999999999999999999999999999999999999999999999999999999999999999999999999999999999999999999999999999999002699999999999999999999)
 (.leaf 9999999999999999999999999999999999999999999999999999999999999999999999999999999999999999999999999999999999999999999999999999999999999999999999999999999999999999999999999999002700289999999999999999999999999999999999999999999999999999999999999999999999999999))
 (.node 1 (.leaf 9999999999999999999999999999999999999999999999999999999999999999999999999999999999999999999999999999999999999999999999999999999999999999999999999999999999999999999999999999999999999999999999999999999999999999999999999999999999999999999999999999999999999999)
 (.leaf 9999999999999999999999999999999999999999999999999999999999999999999999999999999999999999999999999999999999999999999999999999999999999999999999999999999999999999999999999999999999999999999999999999999999999999999999999999999999999999999999999999999999999999)))
 (.node 2 (.node 1 (.leaf 9999999999999999999999999999999999999999999999999999999999999999999999999999999999999999999999999999999999999999999999999999999900299999999999999999999999999999999999999999999999999999999999990030999999999999999999999999999999999999999999999999999999999999)
 (.leaf 9999999999999999999900319999999999999999999999999999999999999999999999999999999999999999999999999999999999999999999999999999999999999999999999999999999999999999999999999999999999999999999999999999999999999999999999999999999999999999999999999999999999999999))
 (.node 1 (.leaf 9999999999999999999999999999999999999999999999999999999999999999999999999999999999999999999999999999999999999999999999999999999999999999999999999999999999999999999999999999999999990032999900339999999999999999999999999999999999999999999999999999999999999999)
 (.leaf 9999999999999999999999999999003499999999999999999999999999999999003500369999999999999999999999999999999999999999999999999999999999999999999999999999999999999999999999999999999999999999999999999999999999999999999999999999999999999999999999999999999999999999))))
 (.node 4 (.node 2 (.node 1 (.leaf 9999999999999999999999999999999999999999999999999999999999999999999999999999999999999999999999999999999999999999999999999999999999999999999999999999999999999999999999999999999999999999999999999999999999999999999999999999999999999999999999999999999999999999)
 (.leaf 9999999999999999999999999999999999999999999999999999999999999999999999999999999999999999999999999999999999999999999999999999999999999999999999999999999999999999999999999999999999999999999999999999999900379999999999999999999999999999999999999999999999999999))
 (.node 1 (.leaf 9999999999999999999999999999999999999999999999999999999999999999999999999999999999999999999999999999999999999999999999999999999999999999999999990038999999999999999999999999999999999999999999999999999999999999999999999999999999999999999999999999999999999999)
 (.leaf 9999999999999999999999999999999999999999999999999999999999999999999999999999999999999999999999999999999999999999999999999999999999999999999999999999999999999999999999999999999999999999999999999999999999999999999999999999999999999999999999999999999999999999)))
 (.node 2 (.node 1 (.leaf 9999999999999999999999999999999999999999999900399999999999999999999999999999999999999999999999999999999999999999999999999999999999999999999999999999999999999999999999999999999999999999999999999999999999999999999999999999999999999999999999999999999999999999)
 (.leaf 9999999999999999999999999999999999999999999999999999999999999999999999999999999999999999999999999999999999999999999999999999999999999999999999999999999999999999999999999999999999999999999999999999999999999999999999999999999999999999999999999999999999999999))
 (.node 1 (.leaf 9999999999999999999999999999999999999999999999999999999999999999999999999999999999999999999999999999999999999999999999999999999999999999999999999999999999999999999999999999999999999999999999999999999999999999999999999999999999999999999999999999999999999999)
 (.leaf 9999999999999999999999999999999999999999999999999999999999999999999999999999999999999999999999999999999999999999999999999999999999999999999999999999999999999999004099999999999999999999999999999999999999999999999999999999999999999999999999999999999999999999)))))
 (.node 8 (.node 4 (.node 2 (.node 1 (.leaf 9999999999999999999999999999999999999999999999999999999999999999999999999999999999999999999999999999999999999999999999999999999999999999999999999999999999999999999999999999999999999999999999999999999999999999999999999999999999999999999999999999999999999999)
 (.leaf 9999999999999999999999999999999999999999999999999999999999999999999999999999999999999999999999999999999999999999999999999999999999999999999999999999999999999999999999999999999999999999999999999999999999999999999999999999999999999999999999999999999999999999))
 (.node 1 (.leaf 9999999999999999999999999999999999999999999900419999999900429999999999999999999999999999999999999999999999999999999999999999999999999999999999999999999999999999999999999999999999999999999999999999999999999999999999999999999999999999999999999999999999999999)
 (.leaf 9999999999999999999999999999999999999999999999999999999999999999999999999999999999999999999999999999999999999999999999999999999999999999999999999999999999999999999999999999999999999999999999999999999999999999999999999999999999999999999999999999999999999999)))
 (.node 2 (.node 1 (.leaf 9999999999999999999999999999004399999999999999990044999999999999999999990045999999999999999999999999999999999999999999999999999999999999999999999999999999999999999999999999999999999999999999999999999999999999999999999999999999999999999999999999999999999999)
 (.leaf 9999999999999999999999999999999999999999999900469999999999999999999999999999999999999999999999999999999999999999999999999999999999999999999999999999999999999999999999999999999999999999999999999999999999999999999999999999999999999999999999999999999999999999))
 (.node 1 (.leaf 9999999999999999999999999999999999999999999999999999999999999999999999999999999999999999999999999999999999999999999999999999999999999999999999999999999999999999999999999999999999999999999999999999999999999999999999999999999999990047999999999999999999999999)
 (.leaf 9999999999999999999999999999999999999999999999999999999999999999999999999999999999999999999999999999999999999999999999999999999999999999999900489999999999999999999999999999999999999999999999999999004999999999999999999999999999999999999999999999999999999999))))
 (.node 4 (.node 2 (.node 1 (.leaf 9999999999999999999999999999999999999999999999999999999999999999999999999999999999999999999999999999999999999999999999999999999999999999999999999999999999999999999999999999999999999999999999999999999999999999999999999999999999999999999999999999999999999999)
 (.leaf 9999999999999999999999999999999999999999999999999999999999999999999999999999999999999999999999999999999999999999999999999999999999999999999999999999999999999999999999999999999999999999999999999999999999999999999999999999999999999999999900509999999999999999))
 (.node 1 (.leaf 9999999900519999999999999999999999999999999999999999999999999999999999999999999999999999999999999999999999999999999999999999999999999999999999999999999999999999999900529999999999999999999999999999999999999999999999999999999999999999999999999999999999999999)
 (.leaf 9999999999999999999999999999999999999999999900530054999999999999999999999999999999999999999999999999999999999999999999999999999999999999999999999999999999999999999999999999999999999999999999999999999999999999999999999999999999999999999999999999999999999999)))
 (.node 2 (.node 1 (.leaf 9999999999999999999999999999999999999999999999999999999999999999999999999999999999999999999999999999999999999999999999999999999999999999999999999999999999999999999999999999999999999999999999999999999999999999999999999999999999999999999999999999999999999999)
 (.leaf 9999999999999999999999999999999999999999999999999999999999999999999999999999999999999999005599999999999999999999999999999999999999999999999999999999999999999999999999999999999999999999999999999999999999999999999999999999999999999999999999999999005699999999))
 (.node 1 (.leaf 9999999999999999999999999999999999999999999999999999999999999999999999999999999999999999999999999999999999999999999999999999999999999999999999999999999999999999999999999999999999999999999999999999999999999999999999999999999999999999999999999999999999999999)
 (.leaf 9999999999999999999999999999999999999999999999999999999999999999999999999999999999999999999999999999999999999999999999999999999999999999999999999999999999999999999999999999999999999999999999999999999999999999999999999999999900579999999999999999999999999999))))))
 (.node 16 (.node 8 (.node 4 (.node 2 (.node 1 (.leaf 9999999900589999999999999999999999999999999999999999999999999999999999999999999999999999999999999999999999999999999999999999999999999999999999999999999999999999999900599999999900609999999999999999999999999999999999999999999999999999999999999999999999999999)
 (.leaf 9999999900619999999999999999999999999999006299999999999999999999999999999999006399999999999999999999999999999999999999999999999999999999999999999999999999999999999999999999999999999999999999999999999999999999999999999999999999999999999999999999999999999999))
 (.node 1 (.leaf 9999999999999999999999999999999999999999999999999999999999999999999999999999999999999999999999999999999999999999999900649999999999999999999999999999999999999999999999999999999999999999999999990065999999999999999999999999999999999999999999999999999999999999)
 (.leaf 9999999999999999999999999999999999999999999999999999999999999999999999999999999999999999999900669999999900679999999999999999999999999999999999999999999900689999999999999999999999999999999999999999999999999999999999999999999999999999999999999999999999999999)))
 (.node 2 (.node 1 (.leaf 9999999900699999999999999999999999999999999999999999999999999999999999999999999999999999999999999999999999999999999999999999999999999999999999999999999999999999999999999999999999999999999999999999999999999999999999999999999999999999999999999999999999999999)
 (.leaf 9999999999999999999999999999999999999999999999999999999999999999999999999999999999999999999999999999999999999999999999999999999999999999999999999999999999999999999999999999999999999999999999999999999999999999999999999999999999999999999999999999999999999999))
 (.node 1 (.leaf 9999999999999999999999999999999999999999999999990070999999990071999999999999999999999999999999999999999999999999999999999999999900729999999999999999007399999999999999999999999999999999999999999999999999999999999999999999999999999999999999999999999999999999)
 (.leaf 9999999999999999999999999999999999999999999999999999999999999999999999999999999999999999999999999999999999999999999999999999999999999999999999999999999999999999999999999999999999999999999999999999999999999999999999999999999999999999999999999999999999999999))))
 (.node 4 (.node 2 (.node 1 (.leaf 9999999999999999999900749999999999999999999999999999999999999999999999999999999999999999999999999999999999999999999999999999999999999999999999999999007599999999999999999999999999999999999999999999999999999999999999999999999999999999999999999999999999999999)
 (.leaf 76999999999999999999999999999999999999999999999999999999999999999999999999999999999999999999999999999999999999999999999999999999999999999999999999999999999999999999999999999999999999999999999999999999999999999999999999999999999999999999999999999999999999))
 (.node 1 (.leaf 9999999999999999999999999999999999999999999999999999999999999999999900779999999999999999999999999999999999999999999999999999999999999999999999999999999999999999999999999999999999999999999999999999999999999999999900789999999999999999999999999999999999999999)
 (.leaf 9999999999999999999999999999999999999999999999999999999999999999999999999999999999999999999999999999999999999999999999999999999999999999999999999999999999999999999999999999999999999999999999999999999999999999999999999999999999999999999999999999999999999999)))
 (.node 2 (.node 1 (.leaf 9999999999999999999999999999999999999999999999999999999999999999999999999999999999999999999999999999999999999999999999999999999999999999999999999999999999999999999999999999999999999999999999999999999999999999999999999999999999999999999999999999007999999999)
 (.leaf 9999999999999999999999999999999999999999999999999999999999999999999999999999999900809999008199999999999999999999999999999999999999999999999999999999999999999999999900829999999999999999999900839999999999999999999999999999999900849999999999999999999999999999))
 (.node 1 (.leaf 9999999999999999008599999999999999999999999999999999999999999999999999999999008699999999999999999999999999999999999999999999999999999999999999999999999999999999999999999999999999999999999999999999999999999999999999999999999999999999999999999999999999999999)
 (.leaf 9999999999999999999999999999999999999999999999999999999900879999999999999999999900880089999900909999999999999999999999999999999999999999999999999999999999999999999999999999999999999999999999999999999999999999999999999999999900919999999999999999009299999999)))))
 (.node 8 (.node 4 (.node 2 (.node 1 (.leaf 9999999999999999999999999999999999999999999999999999999999999999999999999999009399999999999999999999999999999999999999999999999999999999999999999999999999999999999999999999999999999999999999999999999999999999999999999999999999999999999999999999999999999999)
 (.leaf 9999999999999999999999999999999999999999999999999999999999999999999999999999999999999999999999999999999999999999999999999999999999999999999999999999999999999999999999999999999999999999999900949999999999999999999999999999999999999999999900959999009699990097))
 (.node 1 (.leaf 9999999999999999999999999999999999999999999999999999999999999999999999999999999999999999999999999999999999999999999999999999009899999999999999999999999999999999999999999999999999999999999999999999999999999999999999999999999999999999999900999999999999999999)
 (.leaf 9999999999999999999999999999999999999999999999999999999999999999999999990100999999999999999999999999999999999999999999999999999999999999999999999999999999999999999999999999999999999999999999999999999999999999999999999999999999999999999999999999999999999999)))
 (.node 2 (.node 1 (.leaf 9999999999999999999999999999999999999999999999999999999999999999999999999999999999999999999901019999999999999999999999999999999999999999999999999999999999999999999999999999999999999999999999999999999999999999999999999999999999999999999999999999999999999999)
 (.leaf 9999999999999999999999999999999999999999999999999999999999999999999999999999999999999999999999999999999999999999010299999999999999999999999999999999999999999999999999999999999999999999999999999999999999999999999999999999999999999999999999999999999999999999))
 (.node 1 (.leaf 9999999999999999999999999999999999999999999999999999999999999999999999999999999999999999999999999999999999999999999999999999999999999999010399999999999999999999010499999999999999999999999999999999999999999999999999999999999999999999010599999999999999990106)
 (.leaf 9999010799999999999999999999999999999999999999990108010999990110999999999999999999999999999999999999999999999999999999999999999999999999999999999999999999999999999999999999999999999999999999999999999999999999011199999999011299990113999999999999999999999999))))
 (.node 4 (.node 2 (.node 1 (.leaf 9999999999999999999999999999011499999999999999999999999999999999999999999999999999999999999999999999999999999999999999999999999999999999999999999999999999999999999999999999999999999999999999999999011599999999999999999999999999999999999901169999999999999999)
 (.leaf 9999999999999999999999999999999999999999999999999999999999999999999999990117999999999999011899999999999999999999999999990119999999999999999999999999999999999999999999990120999999999999999999999999999999999999999999999999999999999999999999999999999999999999))
 (.node 1 (.leaf 9999999999999999999999999999999999999999999999999999999999999999999999999999999999999999999999999999999999999999999999999999999999999999999999999999999999999999999999999999999999999999999999999999999999999999999999999999999999999999999999999999999999999999)
 (.leaf 9999999999999999999999999999999999999999999999990121999999999999999999999999999999999999999999999999999999999999999999999999999999999999999999999999999901229999999999999999012301249999999901259999999999999999999999999999012699999999999999999999999999999999)))
 (.node 2 (.node 1 (.leaf 9999999999999999999999999999999999999999999999999999999999999999999999999999999999999999999999999999999999999999999999999999999999999999999999999999999999999999999999999999999999999999999999999999999999999999999999999999999999999999999999999999999999999999)
 (.leaf 9999999999999999999999999999999999999999999999999999999999999999999999999999999999999999999999999999999999999999999999999999999999999999999999999999999999999999999999999999999999999999999999999999999901279999999999999999999999999999999999999999999999999999))
 (.node 1 (.leaf 9999999999999999999999999999999999999999999999999999999901289999999999999999012999999999999999999999999999999999999999999999999999999999999999999999999999999999999999999999999999999999999999999999999999999999999999999999999999999999999999999999999999999999)
 (.leaf 9999999999999999999999999999999999990130999999999999999999999999999999999999999999999999999999999999999999999999999999999999999999999999999999999999999999999999999999999999999999999999999999999999999999999999999999999999999999999999999999999999999999999999)))))))))
 (.node 128 (.node 64 (.node 32 (.node 16 (.node 8 (.node 4 (.node 2 (.node 1 (.leaf 9999999999999999999999999999999999999999999999999999999999999999999999999999999999999999013199999999999999999999999999999999999999999999999999999999999999999999999999999999999999999999999999999999999999999999999901329999999999999999013399999999013499999999)
 (.leaf 9999999901359999999999999999999999999999013699999999999999999999999999999999999999999999999999999999999999999999999999999999999999999999999999999999999999999999999999999999999999999999999999999999999999999999999999999999999999999999999999999999999999999999))
 (.node 1 (.leaf 9999999999999999999999999999999999999999999999999999999999999999999999999999999999999999999999999999999999999999999999999999999999999999999999999999999999999999999999999999999999999999999901379999999999999999999901389999999999999999999999999999999999990139)
 (.leaf 9999999999999999999999999999999999999999999999999999999999999999999999999999999999999999999999999999999901409999999999999999014199999999999999999999999999999999999999999999999999999999999999999999999999999999999999999999999999999999999999999999999999999999)))
 (.node 2 (.node 1 (.leaf 9999999999999999999999999999999999999999999901429999999999999999999999999999999999999999999999999999999999999999999999999999999999999999999999999999999999999999999999999999999999999999999999999999999999999999999999999999999999999999999999999999999999999999)
 (.leaf 9999999999999999999999999999999999999999999999999999999999999999999999999999999999999999014399999999999999999999999999999999999999999999999999999999999999999999999999999999999999999999999999999999999999999999999999999999999999999999999999999999999999999999))
 (.node 1 (.leaf 9999999999999999999901449999014599999999999999999999999999990146999999999999999999999999999999999999999999999999999999999999999999999999999999999999999999999999999999999999999999999999999999999999999999999999999999999999999999999999999999999999999999999999)
 (.leaf 9999999999999999999999999999999999999999999999999999999999999999999999999999999999999999999999999999999999999999999999999999999999999999999999999999999999999999999999999999999999999999999999999999999999999999999999999999999999999999999999999999999999999999))))
 (.node 4 (.node 2 (.node 1 (.leaf 9999999999999999999999999999999999999999999999999999999999999999999999999999999999999999999999999999999999999999999999999999014799999999999901480149999901509999999901510152999999999999015399999999999901549999999999999999999999999999999999999999999999999999)
 (.leaf 9999999999999999999999999999999999999999999999999999999999999999999999999999999999999999999999999999999999999999999999999999999999999999999999999999999999999999999999999999999999999999999999999999999999999999999999999999999999999999999999999999999999999999))
 (.node 1 (.leaf 9999999999999999999999999999999999999999999999999999999999999999999999999999999999999999999999999999999999999999999999999999999999999999999999999999999999999999999999999999999999999999999999999999999999999999999999999999999999999999999999999999999999999999)
 (.leaf 9999999901550156999901579999999999990158999901599999999999999999999999999999016099999999999999999999999999999999999999999999999999999999999999999999999999999999999999999999999999999999999999999999999999999999999999999999999999999999999999999999999999999999)))
 (.node 2 (.node 1 (.leaf 9999999999999999999999999999999999999999999999999999999999999999999999999999999999999999999999999999999999999999999999999999999999999999999901619999999999999999999999999999999999999999999999999999999999999999999999999999999999999999999999999999999901629999)
 (.leaf 9999999999999999999999999999999999999999999999999999016399999999999999999999999999999999999999999999999999999999999999999999999999999999999999999999999999999999999999999999999999999999999999999999999999999999999999999999999999999999999999999999999999999999))
 (.node 1 (.leaf 9999999999999999999999999999999999999999999999999999999999999999999999999999999999999999999999999999999999999999999999999999999999999999999999999999999999999999999999999999999999999999999999999999999999999999999999999999999999999999999999999999999999999999)
 (.leaf 9999016499999999999999999999999999999999999999999999999999999999999999999999999999999999999999999999999999999999999999999999999999999999999999999999016501669999016701689999999999999999999999999999999999999999999999999999999999999999999999999999999999999999)))))
 (.node 8 (.node 4 (.node 2 (.node 1 (.leaf 9999999999999999999999999999999999999999999999999999999999999999999999999999999999999999999999999999999999999999999999999999999999999999999999999999999999999999999999999999999999999999999999999999999999999999999999999999999999999999999999999999999999999999)
 (.leaf 9999999999999999999999999999999999999999999999999999999999999999999999999999999999999999999999999999999999999999999999990169999999999999999999999999999999999999999999999999999999999999999999999999999999999999999999999999999999999999999999999999999999990170))
 (.node 1 (.leaf 9999017101729999999999999999999999999999999999999999999999990173999999999999999999999999999999999999999999999999999999999999999999999999999999999999999999999999999999999999999999999999999999999999999999999999999999999999999999999999999999999999999999999999)
 (.leaf 9999999999999999999999999999999999999999999999999999999999999999999999999999999999999999999999999999999999999999999999990174999999999999999999999999999999999999999999999999999999999999999999999999999999999999999999999999999999999999999999999999017501769999)))
 (.node 2 (.node 1 (.leaf 9999017701789999999999999999999999999999999999999999999999999999999999999999999999999999999999999999999999999999999999999999999999999999999999999999999999999999999999999999999999999999999999999999999999999999999999999999999999999999999999999999999999999999)
 (.leaf 9999999999999999999999999999999999999999999999999999999999999999999999999999999999999999999999999999999999999999999999999999999999999999999999999999999999999999999999999999999999999999999999999999999999999999999999999999999999999999999999999999999999999999))
 (.node 1 (.leaf 9999999999999999999999999999999999999999017999999999999999999999999999999999999999999999999999999999999999999999999999999999999999999999999999999999999999999999999999999999999999999999999999999999999999999999999999999999999999999999999999999999999999999999)
 (.leaf 9999999999999999999999999999999999999999999999999999999999999999999999999999999999999999999999999999999999999999999999999999999999999999999999999999999999999999999999999999999999999999999901809999999999999999999999999999999999999999999999999999999999999999))))
 (.node 4 (.node 2 (.node 1 (.leaf 9999999999999999999999999999999901819999018299999999999999999999999999999999999999999999999999999999999999999999999999999999999999999999999999999999999999999999999999999999999999999999999999999999999999999999999999999999999999999999999999999999999999999999)
 (.leaf 9999999999999999999999999999999999999999999999999999999999999999999999999999999999999999999999999999999999999999999999999999999999999999999999999999999999999999999999990183999999999999999901849999018599990186999901879999999999999999999999999999999999999999))
 (.node 1 (.leaf 9999999999999999999999999999999999999999999999999999018899999999999999999999999999999999999999999999999999999999999999999999999999999999999999999999999999999999999999999999999999999999999999999999999999999999999999999999999999999999999999999999999999999999)
 (.leaf 9999999999990189999999999999999999999999999999999999999999999999999999999999999999999999999999999999999999999999999999999999999999999999999999999999999999999999999999999999999999999999999999999999999999999999999999999999999999999999999999999999019001919999)))
 (.node 2 (.node 1 (.leaf 9999999999999999999999999999999999999999999999999999999999999999999999999999999999999999999999999999999999999999019201939999999999999999999999999999999999999999999999999999999999999999999999999999999999999999999999999999999999999999999999999999999999999999)
 (.leaf 9999999999999999999999999999999999999999999999999999999999999999999999999999999999999999999999999999999999999999999999999999999999999999999999999999999999999999999999999999999999999999999999999999999999999999999999999999999999999999999999999999999999999999))
 (.node 1 (.leaf 9999999999999999999901949999999999999999999901950196999999999999999999999999999999999999999999999999999999999999999999999999999999999999999999999999999999999999999999999999999999999999999999999999999999999999999999999999999999999999999999999999999999999999)
 (.leaf 9999999999999999999999999999999999999999999999999999999999999999999999999999999999999999999999999999999999999999999999999999999999999999999999999999999999999999999999999999999999999999999999999999999999999999999999999999999999999999999999999999999999999999))))))
 (.node 16 (.node 8 (.node 4 (.node 2 (.node 1 (.leaf 197999999999999999999999999999999999999999999999999999999999999999999990198999999999999999999999999019999990200999999999999999999999999999999999999999999999999020199999999999999999999999999999999999999999999999999999999999999999999999999999999999999999999)
 (.leaf 9999999999999999999999999999999999999999999999999999999999999999999999999999999999999999999999999999999999999999999999999999999999999999999999999999999999999999999999999999999999999999999999999999999999999999999999999999999999999999999999999999999999999999))
 (.node 1 (.leaf 9999999999999999999999999999999999999999999999999999999999990202999902039999999999999999999999999999999999999999999999999999999999999999999999999999999902049999999999999999999999999999999999999999999999999999999999999999999999999999999999999999999999999999)
 (.leaf 9999999999999999999999999999999999999999999999999999999999999999999999999999999999999999999999999999999999999999999999999999020599999999999999999999999999999999999999999999999999999999999999999999999999999999999999999999999999999999999999999999999999999999)))
 (.node 2 (.node 1 (.leaf 9999999999999999999999999999999999999999999999999999999999999999999999999999999999999999999999999999999999999999999999999999020699999999999999999999999999990207999999999999999999999999999999999999999999999999999999999999999999999999999999999999999999999999)
 (.leaf 9999999999999999999999999999999999999999999999999999999999999999999999999999999999999999999999999999999999999999999999999999999999999999999999999999999999999999999999999999999999999999999999999999999999999999999999999999999999999999999999999999999999999999))
 (.node 1 (.leaf 9999999999999999999999999999999999999999999999999999999999999999999999999999999999999999999999999999999999999999999999999999999999999999999999999999999999999999999999999999999999999999999999999999999999999999999999999999999999999999999999999999999999999999)
 (.leaf 9999999999999999999999999999999999999999999999999999999999999999999999999999999999999999999999999999999999999999999999999999999999999999999999999999999999999999999999999999999999999999999999999999999999999999999999999999999999999999999999999999999999999999))))
 (.node 4 (.node 2 (.node 1 (.leaf 9999999999999999999999999999999999999999999999999999999999999999999999999999999999999999999999999999999999999999999999999999999999999999999999999999999999999999999999999999999999999999999999999999999999999999999999999999999999999999999999999999999999999999)
 (.leaf 9999999999990208999902099999999999999999021002110212999999999999999999999999999999999999999999999999999999999999999999999999999999999999999999999999999999999999999999999999999999999999999999999999999999999999999999999999999999999999999999999999999999999999))
 (.node 1 (.leaf 9999999999999999999999999999999999999999999999999999999999999999999999999999999999999999999999999999999999999999999999999999999999999999999999999999999999999999999999999999999999999999999999999999999999999999999999999999999999999999999999999999999999990213)
 (.leaf 9999999999999999999999999999999999999999999999999999999999999999999999999999999999999999999999999999999999999999999999999999999999999999999999999999999999999999999999999999999999999999999999999999999999999999999999999999999999999999999999999999999999999999)))
 (.node 2 (.node 1 (.leaf 9999999999999999999999999999999999999999999999999999999999999999999999999999999999999999999999999999999999999999999999999999999999999999999999999999999999999999999999999999999999999999999999999999999999999999999999999999999902149999999999999999999999999999)
 (.leaf 9999999999999999999999999999999999999999999999999999999999999999021599999999999999999999999999999999999999999999999999999999999999999999999999999999999999999999999999999999999999999999999999999999999999999999999999999999999999999999999999999999999999999999))
 (.node 1 (.leaf 9999999999999999999999999999999999999999999999999999999999999999999999999999999999999999999999999999999999999999999999999999999999999999999999999999999902169999999999999999999999990217999999990218999999999999999999999999999999999999999999999999999999999999)
 (.leaf 9999999999999999999999999999999999999999999999999999999999999999999999999999999999999999999999999999999999999999999999999999999999999999999999999999999999999999999999999999999999999999999999999999999999999999999999999999999999999999999999999999999999999999)))))
 (.node 8 (.node 4 (.node 2 (.node 1 (.leaf 9999999999999999999999999999999999999999999999999999999999999999999999999999999999999999999999999999999999999999021999990220999999999999999902219999999999999999999999999999999999999999999999999999999999999999999999999999999999999999999999999999999999999999)
 (.leaf 9999999999999999999999999999999999999999999999999999999999999999999999999999999999999999999999999999999999999999999999999999999999999999999999999999999999999999999999999999999999999999999999999999999999999999999999999999999999999999999999999999999999999999))
 (.node 1 (.leaf 9999999999999999999999999999999999999999999999999999999999999999999999999999999999999999999999999999999999999999999999999999999999999999999999999999999999999999999999999999999999999999999999999999999999999999999999999999999999999999999999999999999999999999)
 (.leaf 9999999999999999999999999999999999999999999999999999999999999999999999999999999999999999999999999999999999999999999999999999999999999999999999999999999999999999999999999999999999999999999999999999999999999999999999999999999999999999999999999999999999999999)))
 (.node 2 (.node 1 (.leaf 9999999999999999999999999999999999999999999999999999999999999999999999999999999999999999999999999999999999999999999999999999999999999999999902229999999902239999999999999999999999999999999999999999999999999999999999999999999999999999999999999999999999999999)
 (.leaf 9999999999999999999999999999999999999999999999999999999999999999999999999999999999999999999999999999999999999999999999999999999999999999999999999999999999999999999999999999999999999999999999999999999999999999999999999999999999999999999999999999999999990224))
 (.node 1 (.leaf 9999999999999999999999999999999902259999022699999999999999999999999999999999999999999999022799999999999999999999999999990228999999999999999999999999999999999999999999999999999999999999999999999999999999999999999999999999999999999999999999999999999999999999)
 (.leaf 9999999999999999999999999999999999999999999999999999999999999999999999999999999999999999999999999999999999999999999999999999999999999999999999999999999999999999999999999999999999999999999999999999999999999999999999999999999999999999999999999999999999999999))))
 (.node 4 (.node 2 (.node 1 (.leaf 9999999999999999999999999999999999999999999999999999999999999999999999999999999999999999999999999999999999999999999999999999999999999999999999999999999999999999999999999999999999999999999999999999999999999999999999999999999999999999999999999999999999999999)
 (.leaf 9999999999999999999999999999999999999999999999999999999999999999999999999999999999999999999999999999999999999999999999999999999999999999999999999999999999999999999999999999999999999999999999999999999999999999999999999999999999999999999999999999999999999999))
 (.node 1 (.leaf 9999999999999999999999999999999999999999999999999999999999999999999999999999999902290230999999999999999999999999999999999999999902319999023299999999999999999999999902339999999999999999023499999999999999999999999999999999999999999999999999999999999999999999)
 (.leaf 9999999999999999999999999999999999999999999999999999999999999999999999999999999999999999999999999999999999999999999999999999999999999999999999999999999999999999999999999999999999999999999999999999999999999999999999999999999999999999999999999999999999999999)))
 (.node 2 (.node 1 (.leaf 9999999999999999999999999999999999999999999999999999999999999999999999999999999999999999999999999999999999999999999999999999999999999999999999999999999999999999999999999999999999999999999999999999999999999999999999999999999999999999999999999999999999999999)
 (.leaf 9999999999999999999999999999999999999999999999999999999999999999999999999999999999999999999999999999999999999999999999999999999999999999999999999999999999999999999999999999999999999999999999999999999999999999999999999999999999999999999999999999999999999999))
 (.node 1 (.leaf 9999999999999999999999999999999999999999999999999999999999999999999999999999023599999999999999999999999999999999999999999999999999999999999999999999999902369999999999990237999999990238023999999999999999999999999999999999999999999999999999999999999999999999)
 (.leaf 240999999999999999999999999999902419999999999999999999999999999999999999999999999999999999999999999999999999999999999999999999999999999999999999999999999999999999999999999999999999999999999999999999999999999999999999999999999999999999999999999999999999999)))))))
 (.node 32 (.node 16 (.node 8 (.node 4 (.node 2 (.node 1 (.leaf 9999999999999999999999999999999999999999999999999999999999999999999999999999999999999999999999999999999999999999999999999999999999999999999999999999999999999999999999999999999999999999999999999999999999999999999999999999999999999999999999999999024299999999)
 (.leaf 9999999999999999999999999999999999999999999999999999999999999999999999999999999999999999999999999999999999999999999999999999999999999999999999999999999999999999999999999999999999999999999999999999999999999999999999999999999999999999999999999999999999999999))
 (.node 1 (.leaf 9999999999999999999999999999999999999999999999999999999999999999999999999999999999999999999999999999999999999999999999999999999999999999999999999999999999999999999999999999999999999999999999999999999999999999999902439999999999999999999999999999999999999999)
 (.leaf 9999999999999999999999999999999999999999999999999999999999999999999999999999999999999999999999999999999999999999999999999999999999999999999999999999999999999999999999999999999999999999999999999999999999999999999999999999999999999999999999999999999999999999)))
 (.node 2 (.node 1 (.leaf 9999999999999999999999999999999999999999999999999999999999999999999999999999999999999999999999999999999999999999999999999999999902449999999999999999999999999999999999999999999999999999999999999999999999999999999999999999999999999999999999999999999999999999)
 (.leaf 9999999999999999999999999999999999999999999999999999999999999999999999999999999999999999999999999999999999999999999999999999999999999999999999999999999999999999999999999999999999999999999999999999999999999999999999999999999999999999999999999999999999999999))
 (.node 1 (.leaf 9999999999999999999999999999999999999999999999999999999999999999999999999999024599999999999999999999999999999999999999990246999999999999999999999999999902479999999999999999999999999999999999999999999999999999999999999999024899999999999999999999999999999999)
 (.leaf 9999999999999999999999999999999999999999999999999999999999999999999999999999999999999999999999999999999999999999999999999999999999999999999999999999999999999999999999999999999999999999999999999999999999999999999999999999999999999999999999999999999999999999))))
 (.node 4 (.node 2 (.node 1 (.leaf 9999999999999999999999999999999999999999999999999999999999999999999999990249999999999999999999999999999999999999999999999999999999999999999999999999999999999999999999999999999999999999999999999999025099999999999999999999999999999999999999999999999999999999)
 (.leaf 9999999999999999999999999999999999999999999999999999999999999999999999999999999999999999999999999999999999999999999999999999999999999999999999999999999999999999999999999999999999990251999999999999999999990252999999999999999999999999999999999999999999999999))
 (.node 1 (.leaf 9999999999999999999999999999025302549999999999999999999999999999999999999999999999999999999999999999999999999999999999999999999999999999025599999999999999999999999999999999999999999999999999999999999999999999999999999999999999999999999999999999999999999999)
 (.leaf 9999999999999999999999999999999999999999999999999999999999999999999999999999999999999999999999999999999999999999999999999999999999999999999999999999999999990256999999999999999999999999999999999999999999999999999999999999999999999999999999990257999999999999)))
 (.node 2 (.node 1 (.leaf 9999999999999999999999999999999999999999999999999999999999999999999999999999999999999999999999999999999999999999999999999999999999999999999999999999999999999999999999999999999999999999999999999999999999999999999999999999999999999999999999999999999999999999)
 (.leaf 9999999999999999999999999999999999999999999999999999999999999999999999999999999999999999999999999999025899999999999902599999999999999999999902609999999999999999999999999999999999999999999999999999999999999999999999999999999999999999999999999999999999999999))
 (.node 1 (.leaf 9999999999999999999999999999999999999999999999999999999999999999999999999999999999999999999999999999999999999999999999999999999999999999999999999999999999999999999999999999999999999999999999999999999999999999999999999999999999999999999999999999999999990261)
 (.leaf 9999999999999999999999999999026299999999999999999999999999999999999999999999999999999999999999999999999999999999999999999999999999999999999999999999999999999999999999999999999999999999999999999999999999999999999999999999999999999999999999999999999999999999)))))
 (.node 8 (.node 4 (.node 2 (.node 1 (.leaf 9999999999999999999999999999999999999999999999999999999999999999999999999999999999999999999999999999999999999999999999999999999999999999999999999999999999999999999999999999999999999999999902630264999999999999999999999999999999999999999999999999999999999999)
 (.leaf 9999999999999999999999999999999999999999999999999999999999999999999999999999999999999999999999999999999999999999999999999999999999999999999999999999999999999999999999999999999999999999999999999999999999999999999999999999999999999999999999999999999999999999))
 (.node 1 (.leaf 9999999999999999999999999999999999999999999999999999999999999999999999999999999999999999999902659999999999999999999999999999999999999999999999999999999999999999999999999999999999999999999999999999999999999999999999999999999999999999999999999999999999999999)
 (.leaf 9999999999999999999999999999999999999999999999999999999999999999999999999999999999999999999999999999999999999999999999999999999999999999999999999999999999999999999999999999999902669999999999999999999999999999999999999999999999999999026799999999026899999999)))
 (.node 2 (.node 1 (.leaf 9999999999999999999902699999999999999999999999999999999999999999999999999999999999999999999999999999999999999999999999999999999999999999999999999999999999999999999999999999999999999999999999999999999999999999999999999999999999999999999999999999999999999999)
 (.leaf 9999999999999999999999999999027099999999999999999999999999999999999999990271999999999999999999999999027299999999999999999999999999999999999999999999999999999999999999999999999999999999999999999999999999999999999999999999999999999999999999999999999999999999))
 (.node 1 (.leaf 9999999999999999999999999999999999999999999999999999999999999999999999999999999999999999999999999999999999999999999999999999999999999999999999999999999999999999999999999999999999999999999999999999999999999999027399999999999999999999999999999999999999999999)
 (.leaf 9999999999990274999999999999999999999999999999999999999999999999999999999999999999999999999999999999999999999999999999999999999999999999999999999999999999999999999999999999999999999999999999999999999999999999999999999999999999999999999999999999999999999999))))
 (.node 4 (.node 2 (.node 1 (.leaf 9999999999999999999999999999999999999999999999999999999999999999999999990275999999999999999999999999027699990277999999999999999902789999999999999999999999999999999999999999999999999999999999999999999999999999999999999999999999999999999999999999999999999999)
 (.leaf 9999999999999999999999999999999999999999999999999999999999999999999999999999999999999999999999999999999999999999999999999999999999999999999999999999999999999999999999999999999999999999999902799999999999999999999999999999999999999999999999999999999999999999))
 (.node 1 (.leaf 9999999999999999999999999999999999999999999999999999999999999999999999999999999999999999999999999999999999999999999999999999999999999999999999999999999999999999999999999999999999999999999999999999999999999999999999999999999999999999999999999999999999999999)
 (.leaf 9999999999990280999999999999999999999999999999999999999999999999999999999999999999999999999999999999999999999999999999999999999999999999999999999999999999999999999999999999999999999999999999999999999999999999999999999999999999999999999999999999999999999999)))
 (.node 2 (.node 1 (.leaf 9999999999999999999999999999999999999999999999999999999999999999999999990281999999999999999999999999999999999999999999999999999999999999999999999999999999999999999999999999999999999999999999999999999999999999999999999999999999999999999999999999999999999999)
 (.leaf 9999999999999999999999999999999999999999999999999999999999999999999999999999999999999999999999999999999999999999999999999999999999999999028299999999999902839999999999999999999999999999999999999999999999999999999999999999999999999999999999999999999999999999))
 (.node 1 (.leaf 9999999999999999999999999999999999999999999999999999999999999999999999999999999999999999999999999999999999999999999999999999999999999999999999999999999999999999999999999999999999999999999999999999999999999999999999999999999999999999999999999999999999999999)
 (.leaf 9999999999999999999902840285999999999999999999999999999999999999999999999999999999999999999999999999999999999999999999999999999999999999999999999999999999999999999999999999999999999999999999999999028699999999999999999999999999999999999999999999999999999999))))))
 (.node 16 (.node 8 (.node 4 (.node 2 (.node 1 (.leaf 9999999999999999999999999999999999999999999999999999999999999999999999999999999999990287999999999999999999999999999999999999999999999999999999999999999999999999999999999999999999999999999999999999999999999999999999999999999999999999999999999999999999999999)
 (.leaf 9999999999999999999999999999999999999999999999999999999999999999999999999999999999999999999999999999999999999999999999999999999999999999999999999999999999999999999999999999999999999999999902889999999999999999999999999999999999999999028999999999999999999999))
 (.node 1 (.leaf 9999999999999999999999999999999999999999999999999999999999999999999999999999999999999999999999999999999999999999999999999999999999999999999999999999999999999999999999999999999999999999999999999999999999999999999999999999999999999999999999999999999999999999)
 (.leaf 9999999999999999999999999999999999999999999999999999999999999999999999999999999999999999999999999999999999999999999999999999999999999999029099999999999999999999999999999999999999999999999999999999029199999999999999999999999999999999999999999999999999990292)))
 (.node 2 (.node 1 (.leaf 9999999999999999999999999999999999999999999999999999999999999999999999999999999999999999999999999999999999999999999999999999999999999999999999999999999999999999999999999999999999990293999999999999999999999999999999999999999999999999999999999999999999999999)
 (.leaf 9999999999999999999999999999999999999999999999999999999999999999999999999999999999999999999902949999029599999999999999999999999999999999999999999999999999999999999999999999999999999999999999999999999999999999999999999999999999999999999999999999999999999999))
 (.node 1 (.leaf 9999999999999999999999999999999999999999999999999999999999999999999999999999999999990296999999999999999999999999999999999999999999999999999999999999999999999999999999999999999999999999999999999999999902979999029899999999999999999999029999999999999999999999)
 (.leaf 9999999999999999999999999999999999999999999999999999999999999999999999999999999999999999999999999999999999999999999999999999999999999999999999999999999999999999999999999999999999999999030099999999030199999999999999999999999999999999999999999999999903029999))))
 (.node 4 (.node 2 (.node 1 (.leaf 9999999999999999999999999999999999999999999999999999999999999999999999999999999999999999999999999999999999999999999999999999999999999999999999999999999999999999999999999999999999999999999999999999999999999999999999999999999999999999999999999999999999999999)
 (.leaf 9999999999999999999999999999999999999999999999999999999999999999999999999999999999999999999999999999999999990303999999990304999999999999999999999999999999999999999999999999999999999999999999999999999999999999030503069999999999999999999999999999999999999999))
 (.node 1 (.leaf 9999999999999999999999999999999999999999999999999999999999999999999999999999999999999999999999999999999999999999999999999999999999999999999999999999999999999999999999999999999999990307999999999999030899999999999999999999999999999999999999999999999999999999)
 (.leaf 9999999999999999999999999999999999999999999999999999999999999999999999999999999999999999999999999999999999999999999999999999999999999999999999999999999999999999999999999999999999999999999999999999999999999999999999999999030999999999999999999999999999999999)))
 (.node 2 (.node 1 (.leaf 9999999999999999031099999999999999999999999999999999999999999999999999999999999999999999999999999999999999999999999999999999999999999999999999999999999999999999999999999999999999999999999999999999999999999999999999999999999999999999999999999999999999999999)
 (.leaf 9999999999999999999999999999999999999999999999999999999999999999999999999999999999999999999903119999999999999999999999999999999999999999999903120313999999999999999999999999999999999999999999999999999999999999999999999999999999999999999999999999999999999999))
 (.node 1 (.leaf 9999999999999999999999999999999999999999999999999999999999999999999999999999999999999999999999999999999999999999999999999999999999999999999999999999999999999999999999999999999999999999999999999999999999999999999999999999999999999999999999999999999903149999)
 (.leaf 9999999999999999999999999999999999999999999999999999999999999999999999999999999999999999999999999999999903159999999999999999999999999999999999999999999999999999999999999999999999999999999999999999999999999999999999999999999999999999999999990316999999999999)))))
 (.node 8 (.node 4 (.node 2 (.node 1 (.leaf 9999999999999999999999999999999999999999999999999999999999999999999999999999999999999999999999999999999999999999999999999999999999999999999999999999999999999999999999999999031799999999999999999999999999999999999999999999999999999999999999999999999999999999)
 (.leaf 9999999999999999999999999999999999999999999999999999031803199999999999999999999999999999999999999999999999999999032099990321032299999999999999999999999999999999999999999999999999999999999999999999999999999999999999999999999999999999999999999999999999999999))
 (.node 1 (.leaf 9999999999999999999999999999999999999999999999999999999999999999999999999999999999999999999999999999999999999999999999999999999999999999999999999999999999999999999999999999999999999999999999999999999999999999999999999999999999999999999999999999999999999999)
 (.leaf 9999999999999999999999999999999999999999999999999999999999999999999999999999999999999999999999999999999999999999999999999999999999999999032399999999999999999999999999999999999999999999999999999999999999999999999999999999999999999999999999999999999999999999)))
 (.node 2 (.node 1 (.leaf 9999999999999999999999999999999999999999999999999999999999999999999999999999999999999999999999999999999999999999999999999999999999999999999999999999999999999999999999999999999999999999999999999999999999999999999999999999999999990324999999999999999999999999)
 (.leaf 9999999999999999999999999999999999999999999999999999999999999999999999999999999999999999999999999999999999999999999999999999999999999999999999999999999999999999999999999999999999999999999999999999999999999999999999999999999999999999999999999999999999999999))
 (.node 1 (.leaf 9999999999999999999999999999999999999999999999999999999999999999999999999999999999999999999999999999999999999999999999999999999999999999999999999999999999999999999999999999999999999999999999999999999999999999999999999999999999999999999999999999999999999999)
 (.leaf 9999999999999999999999999999999999999999999999999999999999999999999999999999999999999999999999999999999999999999999999999999999999999999999999999999999999999999999999999999999999999999999999999999999999999999999999999999999999999999999999999999999999999999))))
 (.node 4 (.node 2 (.node 1 (.leaf 9999999999999999032599999999999999999999999999999999999999999999999999999999999999999999999999999999999999999999999999999999999999999999999999999999999999999999999999999999999999999999999999999999999999999999999999999999999999999999999999999999999999999999)
 (.leaf 9999999999999999999999999999999999999999999999999999999999999999999999999999999999999999999999999999999999999999999999999999999999999999999999999999999999999999999999999999999999999999999999999999999999999999999999999999999999999999999999999999999999999999))
 (.node 1 (.leaf 9999999999999999999999999999999999999999999999999999999999999999999999999999999999999999999999999999999999999999999999999999999999999999999999999999999999999999999999999999999999999999999999999999999999999999999999999999999999999999999999999999999999999999)
 (.leaf 9999999999999999999999999999999999999999999999999999999999999999999999999999032699999999999999999999999999999999999999999999999999999999999999999999999999999999999999999999999999999999999999999999999999999999999999999999999999999999999999999999999999999999)))
 (.node 2 (.node 1 (.leaf 9999999999999999999999999999999999999999999999999999999999999999999999999999999999999999999999999999999999999999999999999999999999999999999999999999999999999999999999999999999999999999999999999999999999999999999999999999999999999999999999999999999999999999)
 (.leaf 9999999999999999999999999999999999999999999999999999999999999999999999999999999999999999999999999999999999999999999999999999999999999999999999999999999999999999999999999999999999999999999999999999999999999999999999999999999999999999999999999999999999999999))
 (.node 1 (.leaf 9999999999999999999999999999999999999999999999999999999999999999999999999999999999999999999999999999999999999999999999999999999999999999999999999999999999999999999999999999999999999999999999999999999999999999999999999999999999999999999999999999999999999999)
 (.leaf 9999999999999999999999999999999999999999999999999999999999999999999999999999999999999999999999990327999999999999999999999999999999999999999999999999999999999999999999999999999999999999999999999999999999999999999999999999999999999999999999999999999999999999))))))))
 (.node 64 (.node 32 (.node 16 (.node 8 (.node 4 (.node 2 (.node 1 (.leaf 9999999999999999999999999999999999999999999999999999999999999999999999999999999999999999999999999999999999999999999999999999999999999999999999999999999999999999999999999999999999999999999999999999999999999999999999999999999999999999999999999999999999999999)
 (.leaf 9999999999999999999999999999999999999999999999999999999999999999999999999999999999999999999999999999999999999999999999999999999999999999999999999999999999999999999999999999999999999999999999999999999999999999999999999999999999999999999999999999999999999999))
 (.node 1 (.leaf 9999999999999999999999999999999999999999999999999999999999999999999999999999999999999999999999999999999999999999999999999999999999999999999999999999999999999999999999999999999999999999999999999999999999999999999999999999999999999999999999999999999999999999)
 (.leaf 9999999999999999999999999999999999999999999999999999999999999999999999999999999999999999999999999999999999999999999999999999999999999999999999999999999999999999999999999999999999999999999999999999999999999999999999999999999999999999999999999999999999999999)))
 (.node 2 (.node 1 (.leaf 9999999999999999999999999999999999999999999999999999999999999999999999999999999999999999999999999999999999999999999999999999999999999999999999999999999999999999999999999999999999999999999999999999999999999999999999999999999999999999999999999999999999999999)
 (.leaf 9999999999999999999999999999999999999999999999999999999999999999999999999999999999999999999999999999999999999999999999999999999999999999999999999999999999999999999999999999999999999999999999999999999999999999999999999999999999999999999999999999999999999999))
 (.node 1 (.leaf 9999999999999999999999999999999999999999999999999999999999999999999999999999999999999999999999999999999999999999999999999999999999999999999999999999999999999999999999999999999999999999999999999999999999999999999999999999999999999999999999999999999999999999)
 (.leaf 9999999999999999999999999999999999999999999999999999999999999999999999990328999999999999999999999999999999999999999999999999999999999999999999999999999999999999999999999999999999999999999999999999999999999999999999999999999999999999999999999999999999999999))))
 (.node 4 (.node 2 (.node 1 (.leaf 9999999999999999999999999999999999999999999999999999999999999999999999999999999999999999999999999999999999999999999999999999999999999999999999999999999999999999999999999999999999999999999999999999999999999999999999999999999999999999999999999999999999999999)
 (.leaf 9999999999999999999999999999999999999999999999999999999999999999999999999999999999999999999999999999999999999999999999999999999999999999999999999999999999999999999999999999999999999999999999999999999999999999999999999999999999999999999999999999999999999999))
 (.node 1 (.leaf 9999999999999999999999999999999999999999999999999999999999999999999999999999999999999999999999999999999999999999999999999999999999999999999999999999999999999999999999999999999999999999999999999999999999999999999999999999999999999999999999999999032999999999)
 (.leaf 9999999999999999999999999999999999999999999999999999999999999999999999999999999999999999999999999999999999999999999999999999999999999999999999999999999999999999999999999999999999999999999999999999999999999999999999999999999999999999999999999999999999999999)))
 (.node 2 (.node 1 (.leaf 9999999999999999999999999999999999999999999999999999999999999999999999999999999999999999999999999999999999999999999999999999999999999999999999999999999999999999999999999999999999999999999999990330999999999999999999999999999999999999999999999999999999999999)
 (.leaf 9999999999999999999999999999999999999999999999999999999999999999999999999999999999999999999999999999999999999999999999999999999999999999999999999999999999999999999999999999999999999999999999999999999999999999999999999999999999999999999999999999999999999999))
 (.node 1 (.leaf 9999999999999999999999999999999999999999999999999999999999999999999999999999999999999999999999999999999999999999999999999999999999999999999999999999999999999999999999999999999999999999999999999999999999999999999999999999999999999999999999999999999999999999)
 (.leaf 9999999999999999999999999999999999999999999999999999999999999999999999999999999999999999999999999999999999999999999999999999999999999999999999999999999999999999999999999999999999999999999999999999999999999999999999999999999999999999999999999999999999999999)))))
 (.node 8 (.node 4 (.node 2 (.node 1 (.leaf 9999999999999999999999999999999999999999999999999999999999999999999999999999999999999999999999999999999999999999999999999999999999999999999999999999999999999999999999999999999999999999033103329999999999999999999999999999999999999999999999999999999999999999)
 (.leaf 9999999999999999999999999999999999999999999999999999999999999999999999999999999999999999999999999999999999999999999999999999999999999999999999999999999999999999999999999999999999999999999999999999999999999999999999999999999999999999999999999999999999999999))
 (.node 1 (.leaf 9999033399999999999999999999999999999999999999999999999999999999999999999999999999999999999999999999999999999999999999999999999999999999999999999999999999999999999999999999999999999999999999999999999999999999999999999999999999999999999999999999999999999999)
 (.leaf 9999999999999999999999999999999999999999999999999999999999999999999999990334999999999999999999999999999999999999999999999999999999999999999999999999999999999999999999999999999999999999999999999999999999999999999999999999999999999999999999999999999999999999)))
 (.node 2 (.node 1 (.leaf 9999999999999999999999999999999999999999999999999999999999999999999999999999999999999999999999999999999999999999999999999999999999999999999999999999999999999999999999999999999999999999999999999999999999999999999999999999999999999999999999999999999999999999)
 (.leaf 9999999999999999999999999999999999999999999999999999999999999999999999999999999999999999999999999999999999999999999999999999999999999999999999999999999999999999999999999999999999999999999999999999999999999999999999999999999999999999999999999999999999999999))
 (.node 1 (.leaf 9999999999999999999999999999999999999999999999999999999999999999999999999999999999999999999999999999999999999999999999999999999999999999999999999999999999999999999999999999999999999999999999999999999999999999999999999999999999999999999999999999999999999999)
 (.leaf 9999999999999999999999999999999999999999999999999999999999999999999999999999999999999999999999999999999999999999999999999999999999999999999999999999999999999999999999999999999999999999999999999999999999999999999999999999999999999999999999999999999999999999))))
 (.node 4 (.node 2 (.node 1 (.leaf 9999999999999999999999999999999999999999999999999999999999999999999999999999999999999999999999999999999999999999999999999999999999999999999999999999999999999999999999999999999999999999999999999999999999999999999999999999999999999999999999999999999999999999)
 (.leaf 9999999999999999999999999999999999999999999999999999999999999999999999999999999999999999999999999999999999999999999999999999999999999999999999999999999999999999999999999999999999999999999999999999999999999999999999999999999999999999999999999999999999999999))
 (.node 1 (.leaf 9999999999999999999999999999999999999999999999999999999999999999999999999999999999999999999999999999999999999999999999999999999999999999999999999999999999999999999999999999999999999999999999999999999999999999999999999999999903359999999999999999999999999999)
 (.leaf 9999999999999999999999999999999999999999999999999999999999999999999999999999999999999999999999999999999999999999999999999999999999999999999999999999999999999999999999999999999999999999999999999999999999999999999999999999999999999999999999999999999999999999)))
 (.node 2 (.node 1 (.leaf 9999999999999999999999999999999999999999999999999999999999999999999999999999999999999999999999999999999999999999999999999999999999999999999999999999999999999999999999999999999999999999999999999999999999999999999999999999999999999999999999999999999999999999)
 (.leaf 9999999999999999999999999999999999999999999999999999999999999999999999999999999999999999999999999999999999999999999999999999999999999999999999999999999999999999999999999999999999999999999999999999999999999999999999999999999999999999999999999999999999999999))
 (.node 1 (.leaf 9999999999999999999999999999999999999999999999999999999999999999999999999999999999999999999999999999999999999999999999999999999999999999999999999999999999999999999999999999999999999999999999999999999999999999999999999999999999999999999999999999999999999999)
 (.leaf 9999999999999999999999999999999999999999999999999999999999999999999999999999999999999999999999999999999999999999999999999999999999999999999999999999999999999999999999999999999999999999999999999999999999999999999999999999999999999999999999999999999999999999))))))
 (.node 16 (.node 8 (.node 4 (.node 2 (.node 1 (.leaf 9999999999999999999999999999999999999999999999999999999999999999999999999999999999999999999999999999999999999999999999999999999999999999999999999999999999999999999999999999999999999999999999999999999999999999999999999999999999999999999999999999999999999999)
 (.leaf 9999999999999999999999999999999999999999999999999999999999999999999999999999999999999999999999999999999999999999999999999999999999999999999999999999999999999999999999999999999999999999999999999999999999999999999999999999999999999999999999999999999999999999))
 (.node 1 (.leaf 9999999999999999999999999999999999999999999999999999999999999999999999999999999999999999999999999999999999999999999999999999999999999999999999999999999999999999999999999999999999999999999999999999999999999999999999999999999999999999999999999999999999999999)
 (.leaf 9999999999999999999999999999999999999999999999999999999999999999999999999999999999999999999999999999999999999999999999999999999999999999999999999999999999999999999999999999999999999999999999999999999999999999999999999999999999999999999999999999999999999999)))
 (.node 2 (.node 1 (.leaf 9999999999999999999999999999999999999999999999999999999999999999999999999999999999999999999999999999999999999999999999999999999999999999999999999999999999999999999999999999999999999999999999999999999999999999999999999999999999999999999999999999999999999999)
 (.leaf 9999999999999999999999999999999999999999999999999999999999999999999999999999999999999999999999999999999999999999999999999999999999999999999999999999999999999999999999999999999999999999999999999999999999999999999999999999999999999999999999999999999999999999))
 (.node 1 (.leaf 9999999999999999999999999999999999999999999999999999999999999999999999999999999999999999999999999999999999999999999999999999999999999999999999999999999999999999999999999999999999999999999999999999999999999999999999999999999999999999999903369999999999999999)
 (.leaf 9999999999999999999999999999999999999999999999999999999999999999033799999999999999999999999999999999999999999999999999999999999999999999999999999999999999999999999999999999999999999999999999999999999999999999999999999999999999999999999999999999999999999999))))
 (.node 4 (.node 2 (.node 1 (.leaf 9999999999999999999999999999999999999999999999999999999999999999999999999999999999999999999999999999999999999999999999999999999999999999033899999999999999999999999999999999999999999999999999999999999999999999999999999999999999999999999999999999999999999999)
 (.leaf 9999999999999999999999999999999999999999999999999999999999999999999999999999999999999999999999999999999999999999999999999999999999999999999999999999999999999999999999999999999999999999999999999999999999999999999999999999999999999999999999999999999999999999))
 (.node 1 (.leaf 9999999999999999999999999999999999999999999999999999999999999999999999999999999999999999999999999999999999999999999999999999999999999999999999999999999999999999999999999999999999999999999999999999999999999999999999999999999999999999999999999999999999999999)
 (.leaf 9999999999999999999999999999999999999999999999999999999999999999999999999999999999999999999999999999999999999999999999999999999999999999999999999999999999999999999999999999999999999999999999999999999999999999999999999999999999999999999999999999999999999999)))
 (.node 2 (.node 1 (.leaf 9999999999999999999999999999999999999999999999999999999999999999999999999999999999999999999999999999999999999999999999999999999999999999999999999999999999999999999999999999999999999999999999999999999999999999999999999999999999999999999999999999999999999999)
 (.leaf 9999999999999999999999999999999999999999999999999999999999999999999999999999999999999999999999999999999999999999999999999999999999999999999999999999999999999999999999999999999999999999999999999999999999999999999999999999999999999999999999999999999999999999))
 (.node 1 (.leaf 9999999999999999999999999999999999999999999999999999999999999999999999999999999999999999999999999999999999999999999999999999999999999999999999999999999999999999999999999999999999999999999999999999999999999999999999999999999999999999999999999999999999999999)
 (.leaf 9999999999999999999999999999999999999999999999999999999999999999999999999999999999999999999999999999999999999999999999999999999999999999999999999999999999999999999999999999999999999999999999999999999999999999999999999999999999999999999999999999999999999999)))))
 (.node 8 (.node 4 (.node 2 (.node 1 (.leaf 9999999999999999999999999999999999999999999999999999999999999999999999999999999999999999999999999999999999999999999999999999999999999999999999999999999999999999999999999999999903399999999999999999999999999999999999999999999999999999999999999999999999999999)
 (.leaf 9999999999999999999999999999999999999999999999999999999999999999999999999999999999999999999999999999999999999999999999999999999999999999999999999999999999999999999999999999999999999999999999999999999999999999999999999999999999999999999999999999999999990340))
 (.node 1 (.leaf 9999999999999999999999999999999999999999999999999999999999999999999999999999999999999999999999999999999999999999999999999999999999999999999999999999999999999999999999999999999999999999999999999999999999999999999999999999999999999999999999999999999999999999)
 (.leaf 9999999999999999999999999999999999999999999999999999999999999999999999999999999999999999999999999999999999999999999999999999999999999999999999999999999999999999999999999999999999990341999999999999999999999999999999999999999999999999999999999999999999999999)))
 (.node 2 (.node 1 (.leaf 9999999999999999999999999999999999999999999999999999999999999999999999999999999999999999999999999999999999999999999999999999999999999999999999999999999999999999999999999999999999999999999999999999999999999999999999999999999999999999999999999999999999999999)
 (.leaf 9999999999999999999999999999999999999999999999999999999999999999999999999999999999999999999999999999999999999999999999999999999999999999999999999999999999999999999999999999999999999999999999999999999999999999999999999999999999999999999999999999999999999999))
 (.node 1 (.leaf 9999999999999999999999999999999999999999999999999999999999999999999999999999999999999999999999999999999999999999999999999999999999999999999999999999999999999999034299999999999999999999999999999999999999999999999999999999999999999999999999999999999999999999)
 (.leaf 9999999999999999999999999999999999999999999999999999999999999999999999999999999999999999999999999999999999999999999999999999999999999999999999999999999999999999999999999999999999999999999999999999999999999999999999999999999999999999999999999999999999999999))))
 (.node 4 (.node 2 (.node 1 (.leaf 9999999999999999999999999999999999999999999999999999999999999999999999999999999999999999999999999999999999999999999999999999999999999999999999999999999999999999999999999999999999999999999999999999999999999999999999999999999999999999999999999999999999999999)
 (.leaf 9999999999999999999999999999999999999999999999999999999999999999999999999999999999999999999999999999034399999999034499999999999999999999999999999999999999999999999999999999999999999999999999999999999999999999999999999999999999999999999999999999999999999999))
 (.node 1 (.leaf 9999999999999999999999999999999999999999999999999999999999999999999999999999999999999999999999999999999999999999999999999999999999999999999999999999999999999999999999999999999999999999999999999999999999999999999903450346999999999999999999999999999999999999)
 (.leaf 9999999999999999999999999999999999999999999999999999999999999999999999999999999999999999999999999999999999999999999999999999999999999999999999999999999999999999999999999999999999999999999999999999999999999999999999999999999999999999999999999999999999999999)))
 (.node 2 (.node 1 (.leaf 9999999999999999999999990347999999999999999999999999999999999999999999999999999999999999999999999999999999999999999999999999999999999999999999999999999999999999999999999999999999999999999999999999999999999999999999999999999999999999999999999999999999999999)
 (.leaf 9999999999999999999999999999999999999999999999999999999999999999999999999999999999999999999999999999999999999999999999999999999999999999034899999999999999999999999999999999999999999999999999999999999999999999999999999999999999999999999999999999999999999999))
 (.node 1 (.leaf 9999999999999999999999999999999999999999999999999999999999999999999999999999999999999999999999999999999999999999999999999999999999999999999999999999999999999999999999999999999999999999999999999999999999999999999999999999999999999999999999999999999999999999)
 (.leaf 9999999999999999999999999999999999999999999999999999999999999999999999999999999999999999999999990349999999999999999999999999999999999999999999999999999999999999999999999999999999999999999999999999999999999999999999999999999999999999999999999999999999999999)))))))
 (.node 32 (.node 16 (.node 8 (.node 4 (.node 2 (.node 1 (.leaf 9999999999999999999999999999999999999999999999999999999999999999999999999999999999999999999999999999999999999999999999999999999999999999999999999999999999999999999999999999999999999999999999999999999999999999999999999999999999999999999999999999999999999999)
 (.leaf 9999999999999999999999999999999999999999999999999999999999999999999999999999999999999999999999999999999999999999999999999999999999999999999999999999999999999999999999999999999999999999999999999999999999999999999999999999999999999999999999999999999999999999))
 (.node 1 (.leaf 9999999999999999999999999999999999999999999999999999999999999999999999999999999999999999999999999999999999999999999999999999999999999999999999999999999999999999999999999999999999999999999999999999999999999999999999999999999999999999999999999999999999999999)
 (.leaf 9999999999999999999999999999999999999999999999999999999999999999999999999999999999999999999999999999999999999999999999999999999999999999999999999999999999999999999999999999999999999999999999999999999999999999999999999999999999999999999999999999999999999999)))
 (.node 2 (.node 1 (.leaf 9999999999999999999999999999999999999999999999999999999999999999999999999999999999999999999999999999999999999999999999999999999999999999999999990350999999999999999999999999999999999999999999999999999999999999999999999999999999999999999999999999999999999999)
 (.leaf 9999999999999999999999999999999999999999999999999999999999999999999999999999999999999999999999999999999999999999999999999999999999999999999999999999999999999999999999999999999999999999999999999999999999999999999999999999999999999999999999999999999999999999))
 (.node 1 (.leaf 9999999999999999999999999999999999999999999999999999999999999999999999999999999999999999999999999999999999999999999999999999999999999999999999999999999999990351999999999999999999999999999999999999999999999999999999999999999999999999999999999999999999999999)
 (.leaf 9999999999999999999999999999999999999999999999999999999999999999999999999999999999999999999999999999999999999999999903529999999999999999999999999999999999999999999999999999999999999999999999999999999999999999999999999999999999999999999999999999999999999999))))
 (.node 4 (.node 2 (.node 1 (.leaf 9999999999999999999999999999999999999999999999999999999999999999999999999999999999999999035399999999999999999999999999999999999999999999999999999999999999999999999999999999999999999999999999999999999999999999999999999999999999999999999999999999999999999999)
 (.leaf 9999999999999999999999999999999999999999999999999999999999999999999999999999999999999999999999999999999999999999999999999999999999999999999999999999999999999999999999999999999999999999999999999999999999999999999999999999999999999999999999999999999999999999))
 (.node 1 (.leaf 9999999999999999999999999999999999999999999999999999999999999999999999999999999999999999999999999999999999999999999999999999999999999999999999999999999999999999999999999999999999999999999999999999999999999999999999999999999999999999999999999999999999999999)
 (.leaf 9999999999999999999999999999999999999999999999999999999999999999999999999999999999999999999999999999999999999999999999999999999999999999999999999999999999999999999999999999999999999999999999999999999999999999999999999999999999999999999999999999999999999999)))
 (.node 2 (.node 1 (.leaf 9999999999999999999999999999999999999999999999999999999999999999999999999999999999999999999999999999999999999999999999999999999999999999999999999999999999999999999999999999999999999999999999999999999999999999999999999999999999999999999999999999999999999999)
 (.leaf 9999999999999999999999999999999999999999999999999999999999999999999999999999999999999999999999999999999999999999999999999999999999999999999999999999999999999999999999999999999999999999999999999999999999999999035499999999999999999999999999999999035599999999))
 (.node 1 (.leaf 9999999999999999999999999999999999999999999999999999999999999999999999999999999999999999999999999999999999999999999999999999999999999999999999999999999999999999999999999999999999999999999999999999999999999999999999999999999999999999999999999999999999999999)
 (.leaf 9999999999999999999999999999999999999999999999999999999999999999999999999999999999999999999999999999999999999999999999999999999999999999999999999999999999999999999999999999999999999999999999999999999999999999999999999999999999999999999999999999999999999999)))))
 (.node 8 (.node 4 (.node 2 (.node 1 (.leaf 9999999999999999999999999999999999999999999999999999999999999999999999999999999999999999999999999999999999999999999999999999999999999999999999999999999999999999999999999999999999999999999999999999999999999999999999999999999999999999999999999999999999999999)
 (.leaf 9999999999999999999999999999999999999999999999999999999999999999999999999999999999999999999999999999999999999999999999999999999999999999999999999999999999999999999999999999999999999999999999999999999999999999999999999999999999999999999999999999999999999999))
 (.node 1 (.leaf 9999999999999999999999999999999999999999999999999999999999999999999999999999999999999999999999999999999999999999999999999999999999999999999999999999999999999999999999999999999999999999999999999999999999999999999999999999999999999999999999999999999999999999)
 (.leaf 9999999999999999999999999999999999999999999999999999999999999999999999999999999999999999999999999999999999999999999999999999999999999999035699999999999999999999999999999999035799999999999999999999999999999999999999999999999999999999999999999999035899999999)))
 (.node 2 (.node 1 (.leaf 9999999999999999999999999999999999999999999999999999999999999999999999999999999999999999999999999999035999999999999999999999999999999999999999999999999999999999999999999999999999999999999999999999999999999999999999999999999999999999999999999999999999999999)
 (.leaf 9999999999999999999999999999999999999999999999999999999999999999999999999999999999999999999999999999999903609999999999999999999999999999999999999999999999999999999999999999999999999999999999999999999999999999999999999999999999999999999999999999999999999999))
 (.node 1 (.leaf 9999999999999999999999999999999999999999999999999999999999999999999999999999999999999999999999999999999999999999999999999999999999999999999999999999999999999999999999999999999999999999999999999999999999999999999999999999999999999999999999999999999999999999)
 (.leaf 361999999999999999999999999999999999999999999999999999999999999999999999999999999999999999999999999999999999999999999999999999999999999999999999999999999999999999999999999999999999999999999999999999999999999999999999999999999999999999999999999999999999999))))
 (.node 4 (.node 2 (.node 1 (.leaf 9999999999999999999999999999999999999999999999990362999999999999999999999999999999999999999999999999999999999999999999999999999999990363036403659999999999999999999999999999999999999999999903669999999999999999999999999999036799999999999999999999999999999999)
 (.leaf 9999999999999999999999999999999999999999999999999999999999999999999999999999999999999999999999999999999999999999999999999999999999999999036803699999999999999999999999999999999999999999999999999999999999999999999903709999999999999999999999999999999999999999))
 (.node 1 (.leaf 9999999999999999999999999999999999999999999999999999999999999999999903719999999999999999999999999999999999999999999999999999999999999999999999999999999999999999999999999999999999999999999999999999999999999999999999999999999999999999999999999999999999999999)
 (.leaf 9999999999999999999999999999999999999999999999999999999999999999999999999999999999999999999999999999999999999999999999999999999999999999999999999999999999999999999999999999999999999999999999999999999999999999999999999999999999999999999999999999999999999999)))
 (.node 2 (.node 1 (.leaf 9999999999999999999999999999999999999999999999999999999999999999999999999999999999999999999999999999999999999999999999999999999999999999999999999999999999999999999999999999999999999999999999999999999999999999999999999999999999999999999999999999999999999999)
 (.leaf 9999999999999999999999999999999999999999999999999999999999999999999999999999999999999999999999999999999999999999999999999999999999999999999999999999999999999999999999999999999999999999999999999999999999999999999999999999999999999999999999999999999999999999))
 (.node 1 (.leaf 9999999999999999999999999999999999999999999999999999999999999999999999999999999999999999999999999999999999999999999999999999999999999999999999999999999999999999999999999999999999999999999999999999999999999999999999999999999999999999999999999999999999999999)
 (.leaf 9999999999999999999999999999999999999999999999999999999999999999999999999999999999999999999999999999999999999999999999999999999999999999999999999999999999999999999999999999999999999999999999999999999999999999999999999999999999999999999999999999999999999999))))))
 (.node 16 (.node 8 (.node 4 (.node 2 (.node 1 (.leaf 9999999999999999999999999999999999999999999999999999999999999999999999999999999999999999999999999999999999999999999999999999999999999999999999999999999999999999999999999999999999999999999999999999999999999999999999999999999999999999999999999999999999999999)
 (.leaf 9999999999999999999999999999999999999999999999999999999999999999999999999999999999999999999999999999999999999999999999999999999999999999999999999999999999999999999999999999999999999999999999999999999999999999999999999999999999999999999999999999999999999999))
 (.node 1 (.leaf 9999999999999999999999999999999999999999999999999999999999999999999999999999999999999999999999999999999999999999999999999999999999999999999999999999999999999999999999999999999999999999999999999999999999999999999999999999999999999999999999999999999999999999)
 (.leaf 9999999999999999999999999999999999999999999999999999999999999999999999999999999999999999999999999999999999999999999999999999999999999999999999999999999999999999999999999999999999999999999999999999999999999999999999999999999999999999999999999999999999999999)))
 (.node 2 (.node 1 (.leaf 9999999999999999999999999999999999999999999999999999999999999999999999999999999999999999999999999999999999999999999999999999999999999999999999999999999999999999999999999999999999999999999999999999999999999999999999999999999999999999999999999999999999999999)
 (.leaf 9999999999999999999999999999999999999999999999999999999999999999999999999999999999999999999999999999999999999999999999999999999999999999999999999999999999999999999999999999999999999999999999999999999999999999999999999999999999999999999999999999999999999999))
 (.node 1 (.leaf 9999999999999999999999999999999999999999999999999999999999999999999999999999999999999999999999999999999999999999999999999999999999999999999999999999999999999999999999999999999999999999999999999999999999999999999999999999999999999999999999999999999999999999)
 (.leaf 9999999999999999999999999999999999999999999999999999999999999999999999999999999999999999999999999999999999999999999999999999999999999999999999999999999999999999999999999999999999999999999999999999999999999999999999999999999999999999999999999999999999999999))))
 (.node 4 (.node 2 (.node 1 (.leaf 9999999999999999999999999999999999999999999999999999999999999999999999999999999999999999999999999999999999999999999999999999999999999999999999999999999999999999999999999999999999999999999999999999999999999999999999999999999999999999999999999999999999999999)
 (.leaf 9999999999999999999999999999999999999999999999999999999999999999999999999999999999999999999999999999999999999999999999999999999999999999999999999999999999999999999999999999999999999999999999999999999999999999999999999999999999999999999999999999999999999999))
 (.node 1 (.leaf 9999999999999999999999999999999999999999999999999999999999999999999999999999999999999999999999999999999999999999999999999999999999999999999999999999999999999999999999999999999999999999999999999999999999999999999999999999999999999999999999999999999999999999)
 (.leaf 9999999999999999999999999999999999999999999999999999999999999999999999999999999999999999999999999999999999999999999999999999999999999999999999999999999999999999999999999999999999999999999999999999999999999999999999999999999999999999999999999999999999999999)))
 (.node 2 (.node 1 (.leaf 9999999999999999999999999999999999999999999999999999999999999999999999999999999999999999999999999999999999999999999999999999999999999999999999999999999999999999999999999999999999999999999999999999999999999999999999999999999999999999999999999999999999999999)
 (.leaf 9999999999999999999999999999999999999999999999999999999999999999999999999999999999999999999999999999999999999999999999999999999999999999999999999999999999999999999999999999999999999999999999999999999999999999999999999999999999999999999999999999999999999999))
 (.node 1 (.leaf 9999999999999999999999999999999999999999999999999999999999999999999999999999999999999999999999999999999999999999999999999999999999999999999999999999999999999999999999999999999999999999999999999999999999999999999999999999999999999999999999999999999999999999)
 (.leaf 9999999999999999999999999999999999999999999999999999999999999999999999999999999999999999999999999999999999999999999999999999999999999999999999999999999999999999999999999999999999999999999999999999999999999999999999999999999999999999999999999999999999999999)))))
 (.node 8 (.node 4 (.node 2 (.node 1 (.leaf 9999999999999999999999999999999999999999999999999999999999999999999999999999999999999999999999999999999999999999999999999999999999999999999999999999999999999999999999999999999999999999999999999999999999999999999999999999999999999999999999999999999999999999)
 (.leaf 9999999999999999999999999999999999999999037299999999999999999999999999999999999999999999999999999999999999999999999999999999999999999999999999999999999999999999999999999999999999999999999999999999999999999999999999999999999999999999999999999999999999999999))
 (.node 1 (.leaf 9999999999999999999999999999999999999999999999999999999999999999999999999999999999999999999999999999999999999999999999999999999999999999999999999999999999999999999999999999999999999999999999999999999999999999999999999999999999999999999999999999999999999999)
 (.leaf 9999999999999999999999999999999999999999999999999999999999999999999999999999999999999999999999999999999999999999999999999999999999999999999999999999999999999999999999999999999999999999999999999999999999999999999999999999999999999999999999999999999999999999)))
 (.node 2 (.node 1 (.leaf 9999999999999999999999999999999999999999999999999999999999999999999999999999999999999999999999999999999999999999999999999999999999999999999999999999999999999999999999999999999999999999999999999999999999999999999999999999999999999999999999999999999999999999)
 (.leaf 9999999999999999999999999999999999999999999999999999999999999999999999999999999999999999999999999999999999999999999999999999999999999999999999999999999999999999999999990373999999999999999999999999999999999999999999999999999999999999999999999999999999999999))
 (.node 1 (.leaf 9999999999999999999999999999999999999999999999999999999999999999999999999999999999999999999999999999999999999999999999999999999999999999999999999999999999999999999999999999999999999999999999999999999999999999999999999999999999999999999999999999999999999999)
 (.leaf 9999999999999999999999999999999999999999999999999999999999999999999999999999999999999999999999999999999999999999999999999999999999999999999999999999999999999999999999999999999999999999999999999999999999999999999999999999999999999999999999999999999999999999))))
 (.node 4 (.node 2 (.node 1 (.leaf 9999999999999999999999999999999999999999999999999999999999999999999999999999999999999999999999999999999999999999999999999999999999999999999999999999999999999999999999999999999999999999999999999999999999999999999999990374999999999999999999999999999999999999)
 (.leaf 9999999999999999999999999999999999999999999999999999999999999999999999999999999999999999999999999999999999999999999999999999999999999999999999999999999999999999999999999999999999999999999999999999999999999999999999999999999999999999999999999999999999999999))
 (.node 1 (.leaf 9999999999999999999999999999999999999999999999999999999999999999999999999999999999999999999999999999999999999999999999999999999999999999999999999999999999999999999999999999999999999999999999999999999999999999999999999999999999999999999999999999999999999999)
 (.leaf 9999999999999999999999999999999999999999999999999999999999999999999999999999999999999999999999999999999999999999999999999999999999999999999999999999999999999999999999999999999999999999999999999999999999999999999999999999999999999999999999999999999999999999)))
 (.node 2 (.node 1 (.leaf 9999999999999999999999999999999999999999999999999999999999999999999999999999999999999999999999999999999999999999999999999999999999999999999999999999999999999999999999999999999999999999999999999999999999999999999999999999999999999999999999999999999999999999)
 (.leaf 9999999999999999999999999999999999999999999999999999999999999999999999999999999999999999037599999999999999999999999999999999999999999999999999999999999999999999999999999999999999999999999999999999999999999999999999999999999999999999999999999999999999999999))
 (.node 1 (.leaf 9999999999999999999999999999999999999999999999999999999999999999999999999999999999999999999999999999999999999999999999999999999999999999999999999999999999999999999999999999999999999999999999999999999999999999999999999999999999999999999999999999999999999999)
 (.leaf 9999999999999999999999999999999999999999999999999999999999999999999999999999999999999999999999999999999999999999999999999999999999999999999999999999999999999999999999999999999999999999999999999999999999999999999999999999999999999999999999999999999999999999))))))))))
 (.node 256 (.node 128 (.node 64 (.node 32 (.node 16 (.node 8 (.node 4 (.node 2 (.node 1 (.leaf 9999999999999999999999999999999999999999999999999999999999999999999999999999999999999999999999999999999999999999999999999999999999999999999999999999999999999999999999999999999999999999999999999999999999999999999999999999999999999999999999999999999999999999)
 (.leaf 9999999999999999999999999999999999999999999999999999999999999999999999999999999999999999999999999999999999999999999999999999999999999999037699999999037799999999999999999999999999999999999999999999999999999999999999999999999999999999999999999999999999999999))
 (.node 1 (.leaf 9999999999999999999999999999999999999999999999999999999999999999999999999999999999999999999999999999999999999999999999999999999999999999999999999999999999999999999999999999999999999999999999999999999999999999999999999999999999999999999999999999999999999999)
 (.leaf 9999999999999999999903789999999999999999999999999999999999999999999999999999999999999999999999999999999999999999999999999999999999999999999999999999999999999999999999999999999999999999999999999999999999999999999999999999999999999999999999999999999999999999)))
 (.node 2 (.node 1 (.leaf 9999999999999999999999999999999999999999999999999999999999999999999999999999999999999999999999999999999999999999999999999999999999999999999999999999999999999999999999999999999999999999999999999999999999999999999999999999999999999999999999999999999999999999)
 (.leaf 9999999999999999999999999999999999999999999999999999999999999999999999999999999999999999999999999999999999999999999999999999999999999999999999999999999999999999999999999999999999999999999999999999999999999999999999999999999999999999999999999999999999999999))
 (.node 1 (.leaf 9999999999999999999999999999999999999999999999999999999999999999999999999999999999999999999999999999999999999999999999999999999999999999999999999999999999999999999999999999999999999999999999999999999999999999999999999999999999999999999999999999999999999999)
 (.leaf 9999999999999999999999999999999999999999999999999999999999999999999999999999999999999999999999999999999999999999999999999999999999999999999999999999999999999999999999999999999999999999999999999999999999999999999999999999999999999999999999999999999999999999))))
 (.node 4 (.node 2 (.node 1 (.leaf 9999999999999999999999999999999999999999999999999999999999999999999999999999999999999999999999999999999999999999999999999999999999999999999999999999999999999999999999999999999999999999999999999999999999999999999999999999999999999999999999999999999999999999)
 (.leaf 9999999999999999999999999999999999999999999999999999999999999999999999999999999999999999999999999999999999999999999999999999999999999999999999999999999999999999999999999999999999999999999999999999999999999999999999999999999999999999999999999999999999999999))
 (.node 1 (.leaf 9999999999999999999999999999999999999999999999999999999999999999999999999999999999999999999999999999999999999999999999999999999999999999999999999999999999999999999999999999999999999999999999999999999999999999999999999999999999999999999999999999999999999999)
 (.leaf 9999999999999999999999999999999999999999999999999999999999999999999999999999999999999999999999999999999999999999999999999999999999999999999999999999999999999999999999999999999999999999999999999999999999999999999999999999999999999999999999999999999999999999)))
 (.node 2 (.node 1 (.leaf 9999999999999999999999999999999999999999999999999999999999999999999999999999999999999999999999999999999999999999999999999999999999999999999999999999999999999999999999999999999999999999999999999999999999999999999999999999999999999999999999999999999999999999)
 (.leaf 9999999999999999999999999999999999999999999999999999999999999999999999999999999999999999999999999999999999999999999999999999999999999999999999999999999999999999999999999999999999999999999999999999999999999999999999999999999999999999999999999999999999999999))
 (.node 1 (.leaf 9999999999999999999999999999999999999999999999999999999999999999999999999999999999999999999999999999999999999999999999999999999999999999999999999999999999999999999999999999999999999999999999999999999999999999999999999999999999999999999999999999999999999999)
 (.leaf 9999999999999999999999999999999999999999999999999999999999999999999999999999999999999999999999999999999999999999999999999999999999999999999999999999999999999999999999999999999999999999999999999999999999999999999999999999999999999999999999999999999999999999)))))
 (.node 8 (.node 4 (.node 2 (.node 1 (.leaf 9999999999999999999999999999999999999999999999999999999999999999999999999999999999999999999999999999999999999999999999999999999999999999999999999999999999999999999999999999999999999999999999999999999999999999999999999999999999999999999999999999999999999999)
 (.leaf 9999999999999999999999999999999999999999999999999999999999999999999999999999999999999999999999999999999999999999999999999999999999999999999999999999999999999999999999999999999999999999999999999999999999999999999999999999999999999999999999999999999999999999))
 (.node 1 (.leaf 9999999999999999999999999999999999999999999999999999999999999999999999999999999999999999999999999999999999999999999999999999999999999999999999999999999999999999999999999999999999999999999999999999999999999999999999999999999999999999999999999999999999999999)
 (.leaf 9999999999999999999999999999999999999999999999999999999999999999999999990379999999999999999999999999999999999999999999999999999999999999999999999999999999999999999999999999999999999999038099999999999999999999999999999999999999999999999999999999999999999999)))
 (.node 2 (.node 1 (.leaf 9999999999999999999999999999999999999999999999999999999999999999999999999999999999999999999999999999999999999999999999999999999999999999999999999999999999999999999999999999999999999999999999999999999999999999999999999999999999999999999999999999999999999999)
 (.leaf 9999999999999999999999999999999999999999999999999999999999999999999999999999999999999999999999999999999999999999999999999999999999999999999999999999999999999999999999999999999999999999999999999999999999999999999999999999999999999999999999999999999999999999))
 (.node 1 (.leaf 9999999999999999999999999999999999999999999999999999999999999999999999999999999999999999999999999999999999999999999999999999999999999999999999999999999999999999999999999999999999999999999999999999999999999999999999999999999999999999999999999999999999999999)
 (.leaf 9999999999999999999999999999999999999999999999999999999999999999999999999999999999999999999999999999999999999999999999999999999999999999999999999999999999999999999999999999999999999999999999999999999999999999999999999999999999999999999999999999999999999999))))
 (.node 4 (.node 2 (.node 1 (.leaf 381999999999999999999999999999999999999999999999999999999999999999999999999999999999999999999999999999999999999999999999999999999999999999999999999999999999999999999999999999999999999999999999999999999999999999999999999999999999999999999999999999999999999)
 (.leaf 9999999999999999999999999999999999999999999999999999999999999999999999999999999999999999999999999999999999999999999999999999999999999999999999999999999999990382999999999999999999999999999999999999999999999999999999999999999999999999999999999999999999999999))
 (.node 1 (.leaf 9999999999999999999999999999999999999999999999999999999999999999999999999999999999999999999999999999999999999999999999999999999999999999999999999999999999999999999999999999999999999999999999999999999999999999999999999999999999999999999999999999999999999999)
 (.leaf 9999999999999999999999999999999999999999999999999999999999999999999999999999999999999999999999999999999999999999999999999999999999999999999999990383999999999999999999999999999903849999999999999999999999999999999999999999999999999999999999999999999999999999)))
 (.node 2 (.node 1 (.leaf 9999999999999999999999999999999999999999999999999999999999999999999999999999999999999999999999999999999999999999999999999999999999999999999999999999999999999999999999999999999999999999999999999999999999999999999999999999999999999999999999999999999999999999)
 (.leaf 9999999999999999999999999999999999999999999999999999999999999999999999999999999999999999999999999999999999999999999999999999999999999999999999999999999999999999999999999999999999999999999999999999999999999999999999999999999999999999999999999999999999999999))
 (.node 1 (.leaf 9999999999999999999999999999999999999999999999999999999999999999999999999999999999999999999999999999999999999999999999999999999999999999999999999999999999999999999999999999999999999999999999999999999999999999999999999999999999999999999999999999999999999999)
 (.leaf 9999999999999999999999999999999999999999999999999999999999990385999999999999038699999999999999999999999999999999999999999999999999999999999999999999999999999999999999999999999999999999999999999999999999999999999999999999999999999999999999999999999999999999))))))
 (.node 16 (.node 8 (.node 4 (.node 2 (.node 1 (.leaf 9999999999999999999999999999999999999999999999999999999999999999999999999999999999999999999999999999999903879999999999999999999999999999999999999999999999999999999999999999999999999999999999999999999999999999999999999999999999999999999999999999999999999999)
 (.leaf 9999999999999999999999999999999999999999999999999999038899999999999903899999999999999999039099999999999903919999999999999999999999999999999999999999999999999999999999999999999999999999999999999999999999999999999999999999999999999999999999999999999999999999))
 (.node 1 (.leaf 9999999999999999999999999999999999999999999999999999999999999999999999999999999999999999999999999999999999999999999999999999999903929999999903939999999999999999999999999999999999999999999999999999999999999999999999999999999999999999999999999999999999999999)
 (.leaf 9999999999999999999999999999999999999999999999999999999999999999999999999999999999999999999999999999999999999999999999999999999999999999999999999999999999999999999999999999999903949999999999999999999999999999999999999999999999999999999999999999999903959999)))
 (.node 2 (.node 1 (.leaf 9999999999999999999999999999999999999999999999999999999999999999999999999999999999999999999999999999999999999999999999999999999999999999999999999999999999999999999999999999039699999999999999999999999999999999999999999999039703989999999999999999999999999999)
 (.leaf 9999999999999999999999999999999999999999999999999999999999999999999999999999999999999999999999999999999999999999999999999999999999999999999999999999999999999999999999999999999999999999999999999999999903999999999999999999999999999999999999999999999999999999))
 (.node 1 (.leaf 9999999999999999999999999999999999999999999999999999999999999999999999999999999999999999999999999999999999999999999999999999999999999999999999999999999999999999999999999999999999999999999999999999999999999999999999999999999999999999999999999999999999999999)
 (.leaf 9999999999999999999999999999040099999999999999999999040199999999999999999999999999999999999999999999999999999999999999999999999999999999999999999999999999999999999999999999999999999999999999999999999999999999999999999999999999999999999999999999999999999999))))
 (.node 4 (.node 2 (.node 1 (.leaf 9999999999999999999999999999999999999999999999999999999999999999999999999999999999999999999999999999999999999999999999999999999999999999999999999999999999999999999999999999999999999999999999999999999999999999999999990402999999999999999999999999040399999999)
 (.leaf 9999999999999999999999999999999999999999999999999999999999999999999999999999999999999999999999999999999999999999999999999999999999999999999999999999999999999999999999999999999999999999999999999999999999999999999999999999999999999999999999999999999999999999))
 (.node 1 (.leaf 9999999999999999999999999999999999999999999999999999999999999999999999999999999999999999999999999999999999999999999999999999999999999999999999999999999999999999999999999999999999999999999999999999999999999999999999999999999999999999999999999999999999999999)
 (.leaf 9999999999999999999999999999999999999999999999999999999999999999999999999999999999999999999999999999999999999999999999999999999999999999999999999999999999999999999999999999999999999999999999999999999999999999999999999999999999999999999999999999999999999999)))
 (.node 2 (.node 1 (.leaf 9999999999990404999999999999999999999999999999999999999999999999999999999999999999999999999999999999999999999999999999999999999999999999999999999999999999999999999999999999040599999999999999999999999999999999999999999999999999999999999999999999999999999999)
 (.leaf 9999999999999999999999999999999999999999999999999999040699999999999999999999999999999999999999999999999999999999040799999999040899999999040999999999999999999999999999999999999999999999999999999999999999999999999999999999999999999999999999999999999999999999))
 (.node 1 (.leaf 9999999999999999999999999999999999999999999999999999999999999999999999999999999999999999999999999999999999999999999999999999999999999999999999999999999999999999999999999999999904109999999999999999999999999999999999999999999999999999999999999999999999999999)
 (.leaf 9999999999999999999999999999999999999999999999999999999999999999999999999999999999999999999999999999999999990411999999999999999999999999999999999999999999999999999999999999999999999999041204139999999999999999999999999999999999999999999999999999999999999999)))))
 (.node 8 (.node 4 (.node 2 (.node 1 (.leaf 9999999999999999999999999999999999999999999999999999999999999999999999999999999999999999999904149999999999999999999999999999999999999999999999999999999999999999999999999999999999999999999999999999041599999999999999999999999999999999999999999999999999999999)
 (.leaf 9999999999999999999999999999999999999999999999999999999999999999999999999999999999999999999999999999999999999999999999999999999999999999999999999999999999999999999999999999999904169999041799999999999999999999999999999999041899999999999999999999999999999999))
 (.node 1 (.leaf 9999999999999999999999999999999999999999999999999999999999999999999999990419999999999999999904209999999904219999999999999999999999999999999999999999999999999999999999999999999999999999999999999999042299990423999999999999999999999999999999999999999999999999)
 (.leaf 9999999999999999999999999999999999999999999999999999999999999999999999990424999999999999999999999999999999999999999999999999999999999999999999990425999999999999999999999999999999990426999904279999999999999999999999999999999999999999999999999999999999999999)))
 (.node 2 (.node 1 (.leaf 9999999999999999999999999999999999999999999999999999999999999999999904289999999999999999999999999999999999999999999999999999999904299999999999999999043099999999999999999999043199999999999999999999999999999999999999999999999999990432999999999999999999999999)
 (.leaf 9999043399999999999999999999999999999999999999999999043499999999043599999999999999999999999999999999999999999999999999999999999999999999999999999999999999999999999999999999999999990436999999999999999999999999999999999999999999999999043799999999999999999999))
 (.node 1 (.leaf 9999999999999999999999999999999999999999043899999999999999999999999999999999999999999999999999999999999999999999999999999999999999999999043999999999044099990441999999999999999999999999999999999999999999999999999999999999999999999999999999990442999999999999)
 (.leaf 9999999999999999999999999999999999999999044399999999999999999999999999999999999999999999999999999999999999999999999999999999999999999999999999999999999904449999999999999999999999999999999999999999999999999999999999990445999999999999999999999999044699999999))))
 (.node 4 (.node 2 (.node 1 (.leaf 9999999999999999999999999999999999999999999999999999999999999999999999999999999904479999044899999999999999999999999999999999999999999999999999999999999999999999044999999999999999999999999999999999999999999999999999999999999999999999999999999999999999999999)
 (.leaf 9999999999999999999999999999999999999999999999999999999999999999999999999999999999999999999999999999999904509999999999999999999999990451999999999999999904529999999904539999999999999999999999999999999999999999999999999999999999999999999999999999999999999999))
 (.node 1 (.leaf 9999999999999999999999999999999999999999999999999999999999999999999999990454999999999999999999999999045599999999999904569999045799999999999999999999999999999999999999999999999999999999999999999999999999999999999999999999999999999999999999999999999999999999)
 (.leaf 458999904599999999999999999999999999999999999999999999999999999999999990460999999999999999999999999999999999999999999999999999904619999999999999999999999999999999999999999999999999999999999999999999999999999999999999999999999999999999999999999999999999999)))
 (.node 2 (.node 1 (.leaf 9999999999999999999904629999999999999999999999999999999999999999999999999999999999999999999904639999999999999999999999999999999999999999999999999999999999999999999999999999999999999999999999999999999999999999999999999999999999999999999999999999999999999999)
 (.leaf 9999999999999999999999999999999999999999999999999999999904649999999999999999046504669999999999999999999999999999999999999999999999999999999999999999999999999999999999999999999999999999999999999999046799999999999999999999999904689999046999999999999999999999))
 (.node 1 (.leaf 9999999999999999999999999999999999999999999999999999999999999999999999999999999999999999999999999999999999999999999999999999999999999999999999999999999999999999999999999999999999999999999904709999999999990471999904729999999999999999999999999999999999999999)
 (.leaf 9999999999999999999999999999999999999999999999999999999999999999999999999999999999999999999999999999999999999999999999999999999999999999999999999999999999999999999904739999999904749999999999999999999999999999999999999999999999999999999999999999999999999999)))))))
 (.node 32 (.node 16 (.node 8 (.node 4 (.node 2 (.node 1 (.leaf 9999999999999999047599999999999999999999999999999999999999999999047699999999999999999999999999999999999999999999999999999999999999999999999999999999999999999999999999999999999999990477999999999999999999999999999999999999999999999999999999999999999999999999)
 (.leaf 9999999999999999999999999999999999999999999999999999999904789999047999999999048099999999999999999999999999999999999999999999999999999999999999999999048199999999999999999999999999999999999999999999999999999999999999999999999904829999999999999999999999999999))
 (.node 1 (.leaf 9999999999999999999999999999999999999999999999999999999999999999048399990484999999999999999999999999999999999999999999999999999999999999999999999999999999999999999999999999999999999999048599999999999999999999999999999999999999999999999999999999999999999999)
 (.leaf 9999999999999999999999990486999999999999999999999999999999999999999999999999999999999999999999999999999999999999999999999999999999999999999999999999999999999999999999999999999999999999999999999999999999999999999999999999999999999999999999999999999999999999)))
 (.node 2 (.node 1 (.leaf 9999999999999999999999999999999999999999999999999999999999999999999999999999999999999999999999999999999999999999999999999999999999999999999999999999999999999999999999999999999904879999999999999999999999999999999999999999999999999999999999999999999999999999)
 (.leaf 9999999999999999999999999999999999999999999999999999999999999999999999999999999999999999999999999999999999999999999999999999048899999999999999999999999999999999999999999999999999999999999999999999999999999999999999999999999999999999999999999999999999999999))
 (.node 1 (.leaf 9999999999999999999999999999999999999999999999999999999999999999048999999999999999999999999999999999999999999999999999999999999999999999999999999999049099999999999999999999999999999999999999999999999999999999999999999999999999999999999999999999999999999999)
 (.leaf 9999999999999999999999999999999999999999999999999999999999999999999999999999999999999999999999999999999999999999999999999999049199999999049299999999999999999999999999999999999999999999999999999999999999999999999999999999999999999999999999999999999999999999))))
 (.node 4 (.node 2 (.node 1 (.leaf 9999999999999999999999999999999999999999999999999999999999999999999999999999999999999999999999999999999999999999999999999999999999999999999999999999999904939999999999999999999999999999999999999999999999999999999999999999999999999999999999999999999999999999)
 (.leaf 9999999999999999999999999999999999999999999999999999999999999999999999999999999999999999999999999999999999999999999999999999999999999999999999999999999999999999999999999999999999999999999999999999999999999999999999999999999999999999999999999999999999999999))
 (.node 1 (.leaf 9999999999999999999999999999999999999999999999999999999999999999999999999999999999999999999999999999999999999999999999999999999999999999999999999999999999999999999999999999999999999999999999999999999904949999999999999999999999999999999999999999999999999999)
 (.leaf 9999999999999999999999999999999999999999999999999999999999999999999999999999999999999999999999999999049599999999999904969999999999999999999999999999049799999999999999999999999999999999999999999999999999999999999999999999999999999999999999999999999999999999)))
 (.node 2 (.node 1 (.leaf 9999999999999999999999999999999999999999999999999999999999999999999999999999999999999999049899999999999999990499999999999999999999999999999999999999999999999999999999999999999999999999999999999999999999999999999999999999999999999999999999999999999999999999)
 (.leaf 9999999999999999999999999999999999999999999999990500999999999999999999999999999999999999999999999999999999999999999999999999999999999999999999999999999999999999999999999999999999999999999999999999999999999999999999999999999999999999999999999999999999999999))
 (.node 1 (.leaf 9999999999999999999999999999999999999999999999999999999999999999999999999999999999999999999999999999999999999999999999999999999999999999999999999999999999999999999999999999999999999999999999999999050199999999999999999999999999999999999999999999999999999999)
 (.leaf 9999999999999999999999999999999999999999999999999999999999999999999999999999999999999999999999999999999999999999050299999999999999999999999999999999999999999999999999999999999999999999999999999999999999999999999999999999999999999999999999999999999999999999)))))
 (.node 8 (.node 4 (.node 2 (.node 1 (.leaf 9999999999999999999999999999999999999999999999999999999999999999999999999999999999999999999999999999999999999999999999999999999999999999999999999999999999999999999999999999999999999999999999999999999999999999999999999999999999999999999999999999999999999999)
 (.leaf 503999999999999999999999999999999999999999999999999999999999999999999999999999999999999999999999999999999999999999999999999999999999999999999999999999999999999999999999999999999999999999999999999999999999999999999999999999999999999050499999999999999999999))
 (.node 1 (.leaf 9999999905059999999999999999999999999999999999999999999999999999999999999999999999999999999999999999999999999999999999999999999999999999999905069999999905079999999999999999999999999999999999999999999999999999999999999999999999999999999999999999999999999999)
 (.leaf 9999999999999999999999999999999999999999999999999999999999999999999999999999999999999999050899999999999999999999999905099999999999999999999999990510999999999999999999999999999999999999999999999999999999999999999999999999999999999999999999999999999999999999)))
 (.node 2 (.node 1 (.leaf 9999999999999999999999999999999999999999999999999999999999999999999999999999999999999999999999999999999999999999999999999999999999999999999999999999999999999999999999999999999999999999051199999999999905129999999999999999999999999999999999999999999999999999)
 (.leaf 9999999999999999999999999999999999999999999999999999999999999999999999999999999999999999999999999999999999999999999999999999999999999999999999999999999999990513999999999999999999999999999999999999999999999999999999999999999999999999999999999999999999999999))
 (.node 1 (.leaf 9999999999999999999999999999999999999999999999999999999999999999999999999999999999999999999999999999051405159999999999999999999999999999999999999999999999999999999999999999999999999999999999999999999999999999999999999999999999999999999999999999999999999999)
 (.leaf 9999051699999999999999999999999999999999999905179999999999999999999999999999999999999999999999999999999999999999999999999999999999999999999999999999999999999999999999999999999999999999999999999999999999999999999905189999999999999999999999999999999999999999))))
 (.node 4 (.node 2 (.node 1 (.leaf 9999999999999999999999999999999999999999999999999999999999999999999999999999999999999999999999999999051999999999052099999999999999999999999999999999999999999999999999999999999999999999999999999999999999999999999999999999999999999999999999999999999999999999)
 (.leaf 9999999999999999999999999999999999999999999999999999999999999999999999999999999999999999999999999999999999999999999999999999999999999999999999999999999999999999999999999999999999999999999905219999999999999999999999999999999999999999999999999999999999999999))
 (.node 1 (.leaf 9999999999999999999999999999999999999999999999999999999999999999999999999999999999999999999999999999999999999999999999999999999999999999999999999999999999999999999999999999999999999999999999999999999999999999999999999999999999999999999999999999999999999999)
 (.leaf 9999999999999999999999999999999999999999999999999999999999999999052299999999999999999999999999999999999999999999999999999999999999999999999999999999999999999999999999999999999999999999999999999999999999999999999999990523999999999999999999999999999999999999)))
 (.node 2 (.node 1 (.leaf 9999999999999999999999999999999999999999999999999999999999999999999999999999999999999999999999999999999905249999999999999999999999999999999999999999999999999999999999999999999999999999999999999999999999999999999905259999999999999999999999999999999999999999)
 (.leaf 9999999999999999999999999999999999999999999999999999999999999999999999999999999999999999999999999999999999999999999999999999999999999999999999999999999999999999999999999999999999999999999999999999999999999999999999999999999999999999999999999999999999999999))
 (.node 1 (.leaf 9999999999999999999999999999999999999999999999999999999999999999999999999999999999999999999999999999999999999999999999999999999999999999999999999999999999999999999999990526999999999999999999999999999905279999052899999999052999999999999999999999999999999999)
 (.leaf 9999999999999999999999999999999999999999999999999999999999999999999999999999053099999999999999999999999999999999999999999999999999999999999999999999999999999999999999999999999999999999999999999999999999999999999999999999999999999999999999999999999999999999))))))
 (.node 16 (.node 8 (.node 4 (.node 2 (.node 1 (.leaf 9999999999999999999999999999999999999999999999999999999999999999999999999999999999999999053199999999999999999999999999999999999999999999999999999999999999999999999999999999999999999999999999999999999999999999999999999999999999999999999999999999999999999999)
 (.leaf 9999999999999999999999999999053299999999999999999999999999999999999999999999999999999999999999999999999999999999999999999999999999999999999999999999999999999999999999999999999999999999999999999999999999999999999999999999999999999999999999999999999999999999))
 (.node 1 (.leaf 9999999999999999999999999999999999999999999999999999999999999999999999999999999999999999999999999999999999999999999999999999999999999999999999999999999999999999999999999999999999999999999999999999999999999999999905339999999999999999999999999999999999999999)
 (.leaf 9999999999999999999999999999999999999999999999999999999999999999999999999999999999999999999999999999999999999999999999999999999999999999999999999999999999999999999999999999999999999999999999999999999999999999999999999999999999999999999999999999999999999999)))
 (.node 2 (.node 1 (.leaf 9999999999999999999999999999999999999999999999999999999999999999999999999999999999999999999999999999999999999999999999999999999999999999999999999999999999999999999999999999999999999999999999999999999999999999999999999999999999999999999999999999999999999999)
 (.leaf 9999999999999999999999999999999999999999999999999999999999999999999999999999999999999999999999999999999999999999999999999999999999999999999999999999999999999999999999999999999999999999999999999999999999999999999999999999999999999999999999999999053499999999))
 (.node 1 (.leaf 9999999999999999053599999999999999999999999999999999999999999999999999999999999999999999999999999999999999999999999999999999999999999999999999999999999999999999999999999999999999999999999999999999999999999999999999999999999999999999999999999999999999999999)
 (.leaf 9999999999999999999999999999999999999999999999999999999999999999999999999999999999999999999999999999999999999999999999999999999999999999999999999999999999999999999999999999999999999999999999990536999999999999999999999999999999999999999999999999999999999999))))
 (.node 4 (.node 2 (.node 1 (.leaf 9999999999999999999999999999999999999999999999990537999999999999999999999999999999999999999999999999999999999999999999999999999999999999999999999999999999999999999999999999999999999999999999999999999999999999999999999999999999999999999999999999999905389999)
 (.leaf 9999999999999999999999999999999999999999999999999999999999999999999999999999999999999999999999999999999999999999999999999999999999999999999999999999999999999999999999999999999999999999999999999999999999999999999999999999999999999999999999999999999999999999))
 (.node 1 (.leaf 9999999999999999999999999999999999999999999999999999999999999999999999999999999999999999999999999999999999999999999999999999999999999999999999999999999999999999999999999999999999999999999999999999999999999999999999999999999999999999999999999999999999999999)
 (.leaf 9999999999990539999999999999999999999999999999999999999999999999999999999999999999999999999999999999999999999999999999999999999999999999999999999999999999999999999999999999999999999999999999999999999999999999999999999999999999999999999999999999999999999999)))
 (.node 2 (.node 1 (.leaf 9999999999999999999999999999999999999999999999999999999999999999999999999999999999999999999999999999999999999999999999999999999999999999999999999999999999999999999999999999999999999999999999999999999999999999999999999999999999999999999999999999999999999999)
 (.leaf 9999999999999999999999999999999999999999999999999999999999999999999999999999999999999999999999999999999999999999999999999999999999999999999999999999999999999999999999999999999999999999999999999999999999999999999999999999999999999999999999999999999999999999))
 (.node 1 (.leaf 9999999999999999999999999999999999999999999999999999999999999999999999999999999999999999999999999999999999999999999999999999999999999999999999999999999999999999999999999999999999999999999999999999999999999999999999999999999999999999999999999999999999990540)
 (.leaf 9999999999999999999999999999999999999999999999999999999999999999999999999999999999999999999999999999999999999999999999999999999999999999999999999999999999999999999999999999999999999999999999999999999999999999999999999999999999999999999999999999999999999999)))))
 (.node 8 (.node 4 (.node 2 (.node 1 (.leaf 9999999999999999999999999999999999999999999999999999999999999999999999999999999999999999999999999999999999999999999999999999999905419999999999999999999999999999999999999999999999999999999999999999999999999999999999999999999999999999999999999999999999999999)
 (.leaf 9999999999999999999999999999999999990542999999999999999999999999999999999999999999999999999999999999999999999999999999999999999999999999999999999999999999999999999999990543999999999999999999999999999999999999999999999999999999999999999999999999999999999999))
 (.node 1 (.leaf 9999999999999999999999999999999999999999999999999999999999999999999999999999999999999999999999999999999999999999999999999999999999999999999999999999999999999999999999999999999999999999999999999999999999999999999999999999999999999999999999999999999999999999)
 (.leaf 9999999999999999999999999999999999999999999999999999999999999999999999999999999999999999999999999999999999999999999999999999999999999999999999999999999999999999999999999999999999999999999999999999999999999999999999999999999999999999999999999999999999999999)))
 (.node 2 (.node 1 (.leaf 9999999999999999999999999999999999999999999999999999999999999999999999999999999999999999999999999999999999999999999999999999999999999999999999999999999999999999999999999999999999999999999999999999999999999999999999999999999999999999999999999999999999999999)
 (.leaf 9999999999999999999999999999999999999999999999999999999999999999999999999999999999999999999999999999999999999999999999999999999999999999999999999999999999999999999999999999999999999999999999999999999905449999999999999999999999999999999999999999999999999999))
 (.node 1 (.leaf 9999999999999999999999999999999999999999999999999999999999999999999999999999999999990545999999999999999999999999999999999999999999999999999999999999999999999999999999999999999999999999999999999999999999999999999999999999999999999999999999999999999999999999)
 (.leaf 9999999999999999999999999999999905469999999999999999999999999999999999999999999999999999999999999999999999999999999999999999999999999999999999999999999999999999999999999999999999999999999999999999999999999999999999999999999999999999999999999999999999999999))))
 (.node 4 (.node 2 (.node 1 (.leaf 9999999999999999999999999999999999999999999999999999999999999999999999999999999999999999999999999999999999999999999999999999999999999999999999999999999999999999999999999999999999999999999999999999999999999999999999999999999999999999999999999999999999999999)
 (.leaf 9999999999999999999999999999999999999999999999999999999999999999999999999999999999999999999999999999999999999999999999999999999999999999999999999999999999999999999999999999999999999999999999999999999999999999999999999999999999999999999999999999999999999999))
 (.node 1 (.leaf 9999999999999999999999999999999999999999999999999999999999999999999999999999999999999999999999999999999999999999999999999999999999999999999999999999999999999999999999999999999999999999999999999999999999999999999999999999999999999999999999999999999999999999)
 (.leaf 9999999999999999999999999999999999999999999999999999999999999999999999999999999999999999999999999999999999999999999999999999999999999999999999999999999999999999999999999999999999999999999999999999999999999999999999999999999999999999999999999999999999999999)))
 (.node 2 (.node 1 (.leaf 9999999999999999999999999999999999999999999999999999999999999999999999999999999999999999999999999999999999999999999999999999999999999999999999999999999999999999999999999999999999999999999999999999999999999999999999999999999999999999999999999999999999999999)
 (.leaf 9999999999999999999999999999999999999999999999999999999999999999999999999999999999999999999999999999999999999999999999999999999999999999999999999999999999999999999999999999999999999999999999999999999999999999999999999999999999999999999999999999054799999999))
 (.node 1 (.leaf 9999999999999999999999999999999999999999999999999999999999999999999999999999999999999999999999999999999999999999999999999999999999999999999999999999999999999999999999999999999999999999999999999999999999999999999999999999999999999999999999999999999999999999)
 (.leaf 9999999999999999999999999999999999999999999999999999999999999999999999999999999999999999999999999999999999999999999999999999999999999999999999999999999999999999999999999999999999999999999999999999999999999999999999999999999999999999999999999999999999999999))))))))
 (.node 64 (.node 32 (.node 16 (.node 8 (.node 4 (.node 2 (.node 1 (.leaf 9999999999999999999999999999999999999999999999999999999999999999999999999999999999999999999999999999999999999999999999999999999999999999999999999999999999999999999999999999999999999999999999999999999999999999999999999999999999999999999999999999999999999999)
 (.leaf 9999999999999999999999999999999999999999999999999999999999999999999999999999999999999999999999999999999999999999999999999999999999999999999999999999054899999999999999999999999999999999999999999999999999999999999999999999054999999999999999999999999999999999))
 (.node 1 (.leaf 9999999999999999999999999999999999999999999999999999999999999999999999999999999999999999999999999999999999999999999999999999999999999999999999999999999999999999999999999999999999999999999999999999999999999999999999999999999999999999999999999999999999999999)
 (.leaf 9999999999999999999999999999999999999999999999999999999999999999999999999999999999999999999999999999999999999999999999999999999999999999999999999999999999999999999999999999999999999999999999999999999999999999999999990550999999999999999999999999999999990551)))
 (.node 2 (.node 1 (.leaf 9999999999999999999999999999999999999999999999999999999999999999999999999999999999999999999999999999999999999999999999999999999999999999999999999999999999999999999999999999999999999999999999999999999999999999999999999999999905529999999999999999999999999999)
 (.leaf 9999999999999999999999999999999999999999999999999999999999999999999999999999999999999999999999999999999999999999999999999999999999999999999999999999999999999999999999999999999999999999999999999999999999990553999999990554999999999999999999999999999999999999))
 (.node 1 (.leaf 9999999999999999999999999999999999999999999999999999999999999999999999999999999999999999999999999999999999999999999999999999999999999999999999999999999999999999999999999999999999999999999999999999999999999999999999999999999999999999999999999999999999999999)
 (.leaf 9999999999999999999999999999999999999999999999999999999999999999999999999999999999999999999999999999999999999999999999999999999999999999999999999999999999999999999999999999999999999999999999999999999999999999999999999999999999999999999999999999999999999999))))
 (.node 4 (.node 2 (.node 1 (.leaf 9999999999999999999999999999999999999999999999999999999999999999999999999999999999999999999999999999999999999999999999999999999999999999999999999999999999999999999999999999999999999999999999999999055599999999999999999999999999999999999999999999999999999999)
 (.leaf 9999055699999999999999999999999999999999999999999999999999999999999999999999999905579999999999999999999999999999999999999999999999999999999999999999999999999999999999999999999999999999999999999999999999999999999999999999999999999999999999999999999999999999))
 (.node 1 (.leaf 9999999905589999999999999999999999999999999999999999999999999999055999999999999999999999999999999999999999999999999999999999999999999999999999999999999999999999999999999999999999999999999999999999999999999999999999999999999999999999999905609999999999999999)
 (.leaf 9999999999999999999999999999999999999999999999999999999999999999999999999999999999999999999999999999999999999999999999999999999999999999999999999999999999999999999999999999999999999999999999999999999999999999999999999999999999999999999999999999999999999999)))
 (.node 2 (.node 1 (.leaf 9999999999999999999999999999999999999999999999999999999999999999999999999999999999999999999999999999999999999999999999999999999999999999999999999999999999999999999999999999999999999999999999999999999999999999999999999999999999999999999999999999999999999999)
 (.leaf 9999999999999999999999999999999999999999999999999999999999999999999999999999999999999999999999999999999999999999999999999999999999999999999999999999999999999999999999999999999999999999999999999999999999999999999999999999999999999999999999999999999999999999))
 (.node 1 (.leaf 9999999999999999999999999999999999999999999999999999999999999999999999999999999999999999999999999999999999999999999999999999999999999999999999999999999999999999999999999999999999999999999999999999999999999999999999999999999999999999999999999999999999999999)
 (.leaf 9999999999999999999999999999999999999999999999999999999999999999999999999999999999999999999999999999999999999999999999999999999999999999999999999999999999999999999999999999999999999999999999999999999999999999999999999999999999999999999999999999999999999999)))))
 (.node 8 (.node 4 (.node 2 (.node 1 (.leaf 9999999999999999999999999999999999999999999999999999999999999999999999999999999999999999999999999999999999999999999999999999999999999999999999999999999999999999999999999999999999999999999999999999999999999999999999999999999999999999999999999999999999999999)
 (.leaf 9999999999999999999999999999999999999999999999999999999999999999999999999999999999999999999999999999999999999999999999999999999999999999999999999999999999999999999999999999999999999999999999999999999999999999999999999999999999999999999999999999999999999999))
 (.node 1 (.leaf 9999999999999999999999999999999999999999999999999999999999999999999999999999999999999999999999999999999999999999999999999999999999999999999999999999999999999999999999999999999999999999999999999999999999999999999999999999999999999999999999999999999999999999)
 (.leaf 9999999999999999999999999999999999999999999999999999999999999999999999999999999999999999999999999999999999999999999999999999999999999999999999999999999999999999999999999999999999999999999999999999999999999999999999999999999999999999999999999999999999999999)))
 (.node 2 (.node 1 (.leaf 9999999999999999999999999999999999999999999999999999999999999999999999999999999999999999999999999999999999999999999999999999999999999999999999999999999999999999999999999999999999999999999999999999999999999999999999999999999999999999999999999999999999999999)
 (.leaf 9999999999999999999999999999999999999999999999999999999999999999999999999999999999999999999999999999999999999999999999999999999999999999999999999999999999999999999999999999999999999999999999999999999999999999999999999999999999999999999999999999999999999999))
 (.node 1 (.leaf 9999999999999999999999999999999999999999999999999999999999999999999999999999999999999999999999999999999999999999999999999999999999999999999999999999999999999999999999999999999999999999999999999999999999999999999999999999999999999999999999999999999999999999)
 (.leaf 9999999999999999999999999999999999999999999999999999999999999999999999999999999999999999999905619999999999999999999999999999999999999999999999999999999999999999999999999999999999999999999999999999999999999999999999999999999999999999999999999999999999999999))))
 (.node 4 (.node 2 (.node 1 (.leaf 9999999999999999999999999999999999999999999999999999999999999999999999999999999999999999999999999999999999999999999999999999999999999999999999999999999999999999999999999999999999999999999999999999999999999999999999999999999999999999999999999999999999999999)
 (.leaf 9999999999999999999999999999999999999999999999999999999999999999999999999999999999999999999999999999999999999999999999999999999999999999999999999999999999999999999999999999999999999999999999999999999999999999999999999999999999999999999999999999999999999999))
 (.node 1 (.leaf 9999999999999999999999999999999999999999999999999999999999999999999999999999999999999999999999999999999999999999999999999999999999999999999999999999999999999999999999999999999999999999999999999999999999999999999999990562056399999999999999999999999999999999)
 (.leaf 9999999999999999999999999999999999999999999999999999999999999999999999999999999999999999999999999999999999999999999999999999999999999999999999999999999999999999999999999999999999999999999999999999999999999999999999999999999999999999999999999999999999999999)))
 (.node 2 (.node 1 (.leaf 9999999999999999999999999999999999999999999999999999999999999999999999999999999999999999999999999999999999999999999999999999999999999999999999999999999999999999999999999999999999999999999999999999999999999999999999999999999999999999999999999999999999999999)
 (.leaf 9999999999999999999999999999999999999999999999999999999999999999999999999999999999999999999999999999999999999999999999999999999999999999999999999999999999999999999999999999999999999999999999999999999999999999999999999999999999999999999999999999999999999999))
 (.node 1 (.leaf 9999999999999999999999999999999999999999999999999999999999999999999999999999999999999999999999999999999999999999999999999999999999999999999999999999999999999999999999999999999999999999999999999999999999999999999999999999999999999999999999999999999999999999)
 (.leaf 9999999999999999999999999999999999999999999999999999999999999999999999999999999999999999999999999999999999999999999999999999999999999999999999999999999999999999999999999999999999999999999999999999999999999999999999999999999999999999999999999999999999999999))))))
 (.node 16 (.node 8 (.node 4 (.node 2 (.node 1 (.leaf 9999999999999999999999999999999999999999999999999999999999999999999999999999999999999999999999999999999999999999999999999999999999999999999905649999999999999999999999999999999999999999999999999999999999999999999999999999999999999999999999999999999999999999)
 (.leaf 9999999999999999999999999999999999999999999999999999999999999999999999999999999999999999999999999999999999999999999999999999999999999999999999999999999999999999999999999999999999999999999999999999999999999999999999999999999999999999999999999999999999999999))
 (.node 1 (.leaf 9999999999990565999999999999999999999999999999999999999999999999999999999999999999999999999999999999999999999999999999999999999999999999999999999999999999999999999999999999999999999999999999999999999999999999999999999999999999999999999999999999999999999999)
 (.leaf 9999999999999999999999999999999999999999999999999999999999999999999999999999999999999999999999999999999999999999999999999999999999999999999999999999999999999999999999999999999999999999999999999999999999999999999999999999999999999999999999999999999999999999)))
 (.node 2 (.node 1 (.leaf 9999999999999999999999999999999999999999999999999999999999999999999999999999999999999999999999999999999999999999999999999999999999999999999999999999999999999999999999999999999999999999999999999999999999999999999999999999999999999999999999999999999999999999)
 (.leaf 9999999999999999999999999999999999999999999999999999999999999999999999999999999999999999999999999999999999999999999999999999999999999999999999999999999999999999999999999999999999999999999999999999999999999999999999999999999999999999999999999999999999999999))
 (.node 1 (.leaf 9999999999999999999999999999999999999999999999999999999999999999999999999999999999999999999999999999999999999999999999999999999999999999999999999999999999999999999999999999999999999999999999999999999999999999999999999999999999999999999999999999999999999999)
 (.leaf 9999999999999999999999999999999999999999999999999999999999999999999999999999999999999999999999999999999999999999999999999999999999999999999999999999999999999999999999999999999999999999999999999999999999999999999999999999999999999999999999999999999999999999))))
 (.node 4 (.node 2 (.node 1 (.leaf 9999999999999999999999999999999999999999999999999999999999999999999999999999056699999999999999999999999999999999999999999999999999999999999999999999999999999999999999999999999999999999999999999999999999999999999999999999999999999999999999999999999999999999)
 (.leaf 9999999999999999999999999999999999999999999999999999999999999999999999999999999999999999999999999999999999999999999999999999999999999999999999999999999999999999999999999999999999999999999999999999999999999999999999999999999999999999999999999999999999999999))
 (.node 1 (.leaf 9999999999999999999999999999999999999999999999999999999999999999999999999999999999999999999999999999999999999999999999999999999999999999999999999999999999999999999999999999999999999999999999999999999999999999999999999999999999999999999999999999999999999999)
 (.leaf 9999999999999999999999999999999999999999999999999999999999999999999999999999999999999999999999999999999999999999999999999999999999999999999999999999999999999999999999999999999999999999999999999999999999999999999999999999999999999999999999999999999999999999)))
 (.node 2 (.node 1 (.leaf 9999999999999999999999999999999999999999999999999999999999999999999999999999999999999999999999999999999999999999999999999999999999999999999999999999999999999999999999999999999999999999999999999999999999999999999999999999999999999999999999999999999999999999)
 (.leaf 9999999999999999999999999999999999999999999999999999056799999999999999999999999999999999999999999999999999999999999999999999999999999999999999999999999999999999999999999999999999999999999999999999999999999999999999999999999999999999999999999999999999999999))
 (.node 1 (.leaf 9999999999999999999999999999999999999999999999999999999999999999999999999999999999999999999999999999999999999999999999999999999999999999999999999999999999999999999999999999999999999999999999999999999999999999999999999999999999999999999999999999999999999999)
 (.leaf 9999999999999999999999999999999999999999999999999999999999999999999999999999999999999999999999999999999999999999999999999999999999999999999999999999999999999999999999999999999999999999999999999999999999999999999999999999999999999999999999999999999999999999)))))
 (.node 8 (.node 4 (.node 2 (.node 1 (.leaf 9999999999999999999999999999999999999999999999999999999999999999999999999999999999999999999999999999999999999999999999999999999999999999999999999999999999999999999999999999999999999999999999999999999999999999999999999999999999999999999999999999999999999999)
 (.leaf 9999999999999999999999999999999999999999999999999999999999999999999999999999999999999999999999999999999999999999999999999999999999999999999905689999999999999999999999999999999999999999999999999999999999999999999999999999999999999999999999999999999999999999))
 (.node 1 (.leaf 9999999999999999999999999999999999999999999999999999999999990569999999999999999999999999999999999999999999999999999999999999999999999999999999999999999999999999999999999999999999999999999999999999999999999999999999999999057099999999999999999999999999999999)
 (.leaf 9999999999999999999999999999999999999999999999999999999999999999999999999999057199999999999999999999999999999999999999999999999999999999999999999999999999999999999999999999999999999999999999999999999999999999999999999999999999999999999999999999057299990573)))
 (.node 2 (.node 1 (.leaf 574999999999999999999999999999999999999999999999999999999999999999999999999999999999999999999999999999999999999999999999999999999999999999999999999999905759999999999999999999999999999999999999999999999999999999999999999999999999999999999999999999999999999)
 (.leaf 9999999999999999999999999999999999999999999999999999999999999999999999999999999999999999999999999999999999999999999999999999999999999999999999999999999999999999999999999999999999999999999999990576999999999999999999999999999999999999999999999999999999999999))
 (.node 1 (.leaf 9999999999999999999999999999999999999999999999999999999999999999999999999999999999999999999999999999999999999999999999999999999999999999999999999999999999999999999999999999999999999999999999999999999999999999999999999999999999999999999999999999999999999999)
 (.leaf 9999999999999999999999999999999999999999999999999999999999999999999999999999999999999999999999999999999999999999999999999999999999999999999999999999999999999999999999999999999999999999999999999999999999999999999999999999999999999999999999999999999999999999))))
 (.node 4 (.node 2 (.node 1 (.leaf 9999999999999999999999999999999999999999999999999999999999999999999999999999999999999999999999999999999999999999999999999999999999999999999999999999999999999999999999999999999999999999999999999999999999999999999999999999999999999999999999999999999999999999)
 (.leaf 9999999999999999999999999999999999999999999999999999999999999999057799999999999999990578999999999999999999999999999999999999999999999999999999999999999999999999057999999999999999999999999999999999999999999999058005819999999999999999999999999999999999999999))
 (.node 1 (.leaf 9999999999999999999999999999999999999999999999999999999999999999999999999999999999999999999999999999999999999999999999999999999999999999999999999999999999999999999999999999999999999999999999999999999999999999058299999999999999999999999999999999999999999999)
 (.leaf 9999999999999999999999999999999999999999999999990583999999999999999999999999999999999999999999999999999999999999999999999999999905849999999999999999999999999999999999999999999999999999999999999999999999999999999999999999999999999999999999999999999999990585)))
 (.node 2 (.node 1 (.leaf 9999999999999999999999999999999999999999999999999999058699999999999999999999999999999999999999999999999999999999058799999999999999999999999999999999999999999999999999999999999999999999999999999999999999999999999999999999999999999999999999999999999999999999)
 (.leaf 9999999999999999999999999999058899999999999999999999999999999999999999999999999999999999999999999999999999999999999999999999999999999999999999999999058999999999999999999999999999990590999999999999999999999999059199999999999999999999999999999999999999999999))
 (.node 1 (.leaf 9999999999999999999905929999999999999999999999999999999999999999999999990593999999999999999999999999999999999999999999999999999999999999999999999999999999999999999999999999999999999999999999999999999999999999999999999999999999999999999999999999999999999999)
 (.leaf 9999999999999999059499999999059505960597999905989999999999999999059999999999999906009999999999999999999999999999999999999999999999999999999999999999999999999999999999999999999999999999999999999999999906019999999999999999999999999999999999999999999999999999)))))))
 (.node 32 (.node 16 (.node 8 (.node 4 (.node 2 (.node 1 (.leaf 9999999906029999999999999999999999999999999999999999999999999999999999999999060399999999060499999999999999999999999999999999999999999999999999999999999999999999999999999999999999999999999999999999999999999999999999999999999999999999999999999999999999999999)
 (.leaf 9999999999999999999999999999999999999999999999999999999999999999999999999999999999999999060599990606999999999999999999999999999999999999999999999999999999999999060799999999999999999999999999999999060899999999999999999999999999999999999999999999999999999999))
 (.node 1 (.leaf 9999060999999999999999999999999999999999999999999999999999999999999999999999999999999999999999999999999999999999999999999999999999999999061099990611999999999999999999999999999999999999999999999999999999999999999999999999999999999999999999999999999999999999)
 (.leaf 9999999999999999999999999999999999999999999999999999999999999999999999999999999999999999999999999999999999990612999999999999061399999999999999999999999999999999999999999999999999999999999999999999999999999999999999999999061499999999999999999999999999999999)))
 (.node 2 (.node 1 (.leaf 9999999999999999999999999999999999999999999999999999999999999999999999999999999999999999999999999999999999990615999999999999999999999999999999999999999999999999999999999999999999999999999999999999999999999999999999999999999999999999999999999999999999999999)
 (.leaf 9999999999999999999999999999999999999999999999999999999999999999061699999999999999999999999999999999999999999999999999999999999999999999999999999999999999999999999999999999999999990617999999999999999999999999999999999999999999999999999999999999999999999999))
 (.node 1 (.leaf 9999999999999999999999999999999999999999999999999999999999999999999999999999999999999999999999990618999999999999999999999999999999999999999999990619999999999999999999999999999999999999999999999999999999999999999999999999999999999999999999999999999999999999)
 (.leaf 9999999999999999999999999999999999999999999999999999999999999999999999999999999999999999999999999999999999999999999999999999999999999999062099999999999999999999999999999999999999999999999999999999999999999999999999999999999999999999999999999999999999999999))))
 (.node 4 (.node 2 (.node 1 (.leaf 9999999999999999999999999999999999999999999999999999999999999999999999999999999999999999999999999999999999999999999999999999999999999999999999999999062199999999999999990622999999999999999999999999999999999999999999999999999999999999999999999999999999999999)
 (.leaf 9999999999999999999999999999062399999999999999999999999999999999999999999999999999999999999999999999999999999999999999999999062499999999999999999999999999999999999999999999999999999999999999999999999999999999999999999999999999999999999999990625999999999999))
 (.node 1 (.leaf 9999999999999999999999999999999999999999999999999999999999999999999999999999999999999999999906269999999999999999999999999999999999999999999999999999999999999999999999999999999999999999999999999999999906279999062899999999999999999999999999999999999999999999)
 (.leaf 9999999999999999999999999999999999999999999999999999999999999999999906299999999906309999999999999999999999999999999999999999999999999999999999999999999999999999999999999999999999999999999999999999999999999999999999999999999999999999999999999999999999999999)))
 (.node 2 (.node 1 (.leaf 9999999906319999999999999999999999999999999999999999999999999999999999999999999999999999999999999999999999999999999999999999999906329999999999999999999999999999999999999999999999999999999999999999999999999999999906339999999999999999999999999999999999999999)
 (.leaf 9999999999999999999999999999999999999999999999999999999999990634999999999999999999999999999999999999999999999999999999999999999999999999999999999999999999999999999999999999999999999999999999999999999999999999999999999999999999999999999999999999999999999999))
 (.node 1 (.leaf 9999999999990635999999999999999999999999063699999999999999999999999999999999999999999999999999999999999999999999999999990637999999999999999999999999999999999999999999999999999999999999999999999999999999999999999999999999999906389999999999999999999999999999)
 (.leaf 9999999999999999999999999999999999999999999999990639064099999999999999999999999999999999999999999999999999999999999999999999999999999999999999999999999906419999999999999999999999999999999999999999999999999999999999999999999999999999999999999999999999999999)))))
 (.node 8 (.node 4 (.node 2 (.node 1 (.leaf 9999999999999999999999999999999999999999999999999999999999999999999999990642999999999999999999999999999999999999999999999999999999999999999999990643999999999999999999999999999999999999999999999999999999999999999999999999999999999999999999999999999999999999)
 (.leaf 9999999999999999999999999999999999990644999999999999999999999999999999999999999999999999999906459999999999999999064699999999999999999999999999999999999999999999064799990648999999999999999999999999999999999999999999999999999999999999999999999999999999999999))
 (.node 1 (.leaf 9999999999999999999999999999999999999999999999999999999906499999999999999999999999999999999999999999999999999999999999999999999999999999999999999999999999999999999999999999999999999999999999999999999999999999999999999999999999999999999999999999999999999999)
 (.leaf 9999065099999999999999999999999999999999999999999999999999999999999999999999999999999999999999999999999999999999999999999999999999999999999999999999999999999999999999999999999999999999999999999999999999999999999999999999999999999999999999999999999999999999)))
 (.node 2 (.node 1 (.leaf 9999999999999999999999999999999999999999999999999999999999999999999999999999999999999999999999999999999999999999999999999999999999999999999999999999999999999999999999999999999999999999999999999999999999999999999999999999999999999999999999999999999999999999)
 (.leaf 9999999999999999999999999999999999999999999999999999999999999999999999999999999999990651999999999999999999999999999999999999999999999999999999999999999999999999999999999999999999999999999999999999999999999999999999999999999999999999999999999999999999999999))
 (.node 1 (.leaf 9999999999999999999999999999999999999999999999999999999999999999999906529999999999999999065399999999999999999999999999999999999999999999999999999999999999999999999999999999999999999999999999999999999999999999999999999999999999999999999999999999999999999999)
 (.leaf 9999999999999999999999999999999999999999999999999999999999999999999999999999999999999999999999999999999999999999999999999999999999999999999999999999999999999999999999999999999999999999999999999999999999999999999999999999999999999999999999999999999999999999))))
 (.node 4 (.node 2 (.node 1 (.leaf 9999999906549999999999999999999999999999999999999999999999999999999999999999999999999999999999999999999999999999999999999999999999999999999999999999999999999999999999999999999999999999999999999999999999999999999999999999999999999999999999999999999999999999)
 (.leaf 9999999999999999999999999999999999999999999999999999999999999999999999999999999999999999999999999999999999999999999999999999999999999999999999999999999999999999999999999999999999999999999999999999999999999999999999999999999999999999999999999999999999999999))
 (.node 1 (.leaf 9999999906559999999999999999999999999999999999999999999999999999999999999999999999999999999999999999999999999999999999999999999999999999999999999999999999999999999999999999999999999999065699999999999999999999999999999999999999999999999999999999999999999999)
 (.leaf 657999999999999999999999999999999999999999999999999999999999999999999999999999999999999999999999999999999999999999999999999999999999999999999999999999906589999999999999999999999999999999999999999999999999999999999999999999999999999999999999999999999999999)))
 (.node 2 (.node 1 (.leaf 9999999999999999999999999999999999999999999999999999999999999999999999999999999999999999999999999999999999999999999999999999999999999999999999999999999999999999999999999999999999999999999999999999999999999999999999999999999999999999999999999999999999999999)
 (.leaf 9999999999999999999999999999065999999999999999999999999999999999999999999999999999999999999999999999066099999999999999999999999999999999999999999999999999999999999999999999999999999999999999999999999999999999999999990661999999999999999999999999999999999999))
 (.node 1 (.leaf 9999999999999999999999999999999999999999999999999999999999999999999999999999999999999999999999999999999999999999999999999999999999999999999999999999999999999999999999999999999999999999999999999999999999990662999999999999999999999999999999999999999999999999)
 (.leaf 9999999999999999999999999999999999999999999999999999999999999999999999999999999999999999999999999999999999999999999999999999999999999999999999999999999999999999999999999999999999999999999999999999999999999999999999999999999999999999999999999999999999999999))))))
 (.node 16 (.node 8 (.node 4 (.node 2 (.node 1 (.leaf 9999999999999999999999999999999999999999999999999999999999999999999999999999999999999999999999999999999999999999999999999999999999999999999999999999999999999999999999999999999999999999999999999999999999999999999999999999999999999999999999999999999999999999)
 (.leaf 9999999999999999999999999999999999999999999999999999999999999999999999999999999999999999999999999999999999999999999999999999999999999999999999999999999999999999066399999999999999999999999999999999999999999999999999999999999999999999999999999999999999999999))
 (.node 1 (.leaf 9999066499999999999999999999999999999999999999999999999999999999999999999999999999999999999999999999999999999999999999999999999999990665999999999999999999999999999999999999999999999999999999999999999999999999999999999999999999999999999999999999999999999999)
 (.leaf 9999999999999999999999999999999999999999999999999999999999999999999999999999999999999999999999999999999999999999999999999999999999999999999906669999999999999999999999999999999999999999999999999999999999999999999999999999999999999999999999999999999999999999)))
 (.node 2 (.node 1 (.leaf 9999999999999999999999999999999999999999999999999999999999999999999999999999999999999999999999999999999999999999066799999999999999999999999999999999999999999999999999999999999999999999999999999999999999999999999999999999999999999999999999999999999999999999)
 (.leaf 9999999999999999999999999999999999999999999999999999999999999999999999999999999999999999999999999999999999999999999999999999999999999999999999999999999999999999999999999999999999999999999999999999999999999999999999999999999999990668999999999999999999999999))
 (.node 1 (.leaf 9999999999999999999999999999999999999999999999999999999999999999999999999999999999999999999999999999999999999999999999999999999999999999999999999999999999999999999999999999999999999999999999999999999999999999999999999999999999999999999999999999999999999999)
 (.leaf 9999999999999999999999999999999999999999999999999999999999999999999999999999999999999999999999999999999999999999999999999999999999999999999999999999999999999999999999999999999999999999999999999999999999999999999999999999999999999999999999999999999999999999))))
 (.node 4 (.node 2 (.node 1 (.leaf 9999999999999999999999999999999999999999999906699999999999999999999999999999999999999999999999999999067099999999999999999999999999999999999999999999999999999999999999999999999906719999999999999999999999999999999999999999999999999999999999999999999999999999)
 (.leaf 9999999999999999999999999999999999999999999906729999999999999999999999999999999999999999999999999999999999999999999999999999999999999999999999999999999999999999999999999999999999999999999999999999999999999999999999999999999999999999999999999999999999999999))
 (.node 1 (.leaf 9999999999999999999999999999999999999999999999999999999999999999999999999999999999999999999999999999999999999999999999999999999999999999999999999999999999999999999999999999999999999999999999999999999999999999999999999999999906739999999999999999999999999999)
 (.leaf 9999999999999999999999999999999999999999999999999999999999999999999999999999999999999999999999999999999999999999999999999999999999999999999999999999999999999999999999999999999999999999999999999999999999999999999999999999999906749999999999999999999999999999)))
 (.node 2 (.node 1 (.leaf 9999999999999999999999999999999999999999999999999999999999999999999999999999999999999999999999999999999999999999999999999999999999999999999999999999999999999999999999999999999999999999999999999999999999999999999999999999999999999999999999999999999999990675)
 (.leaf 9999999999999999999999999999999999999999999999999999999999999999999999999999999999999999999999999999999999999999999999999999999999999999999999999999999999999999999999999999999999999999999999999999999999999999999999999999999999999999999999999999999999999999))
 (.node 1 (.leaf 9999999999999999999999999999999999999999999999999999999999999999999999999999999999999999999999999999999999999999999999999999999999999999999999999999999999999999999999999999999999999999999999999999999999999999999999999999999999999999999999999999999999999999)
 (.leaf 9999999999999999999999999999999999999999999999999999999999999999999999999999999999999999999999999999999999999999999999999999999999999999999999999999999999999999999999999999999999999999999999999999999999999999999999999999999999999999999999999999999999999999)))))
 (.node 8 (.node 4 (.node 2 (.node 1 (.leaf 9999999999999999999999999999999999999999999999999999999999999999999999999999999999999999999999999999999999999999999999999999999999999999999999999999999999999999999999999999999999999999999999999999999999999999999999999999999999999999999999999999999999999999)
 (.leaf 9999999999999999999999999999999999999999999999999999999999999999999999999999999999999999999999999999999999999999999999999999999999999999999999999999999999999999999999999999999999999999999999999999999999999999999999999999999999999999999999999999999999999999))
 (.node 1 (.leaf 9999999999999999999999999999999999999999999999999999999999999999999999999999999999999999999999999999999999999999999999999999999999999999999999999999999999999999999999999999999999999999999999999999999999999999999999999999999999999999999999999999999999999999)
 (.leaf 9999999999999999999999999999999999999999999999999999999999999999999999999999999999999999999999999999999999999999999999999999999999999999999999999999999999999999999999999999999999999999999999999999999999999999999999999999999999999999999999990676999999999999)))
 (.node 2 (.node 1 (.leaf 9999999999999999999999999999999999999999999999999999999999999999999999999999999999999999999999999999999999999999999999999999999999999999999999999999999999999999999999999999999999999999999999999999999999999999999999999999999999999999999999999999999999999999)
 (.leaf 9999999999999999999999999999999999999999999999999999999999999999999999999999999999999999999999999999999999999999999999999999999999999999999999999999999999999999999999999999999999999999067799999999999999999999999999999999999999999999999999999999999999999999))
 (.node 1 (.leaf 9999999999999999999999999999999999999999999999999999999999999999999999999999999999999999999999999999999999999999999999999999999999999999999999999999999999999999999999999999999999999999999999999999999999999999999999999999999999999999999999999999999999999999)
 (.leaf 678067999999999999999999999999999999999999999999999999999999999999999999999999999999999999999999999999999999999999999999999999999999999999999999999999999999999999999999999999999999999999999999999999999999999999999999999999999999999999999999999999999999999))))
 (.node 4 (.node 2 (.node 1 (.leaf 9999999999999999999999999999999999999999999999999999999999999999999999999999999999999999999999999999999999999999999999999999999999999999999999999999999999999999999999999999999999999999999999999999999999999999999999999999999999999999999999999999999999999999)
 (.leaf 9999999999999999999999999999068099999999999999999999999999999999999999999999999999999999999999999999999999999999999999999999999999999999999906819999999999999999999999999999999999999999999999999999999999999999999999999999999999999999999999999999999999999999))
 (.node 1 (.leaf 9999999999999999999999999999999999999999999999999999999999999999999999999999999999999999999999999999999999999999999999999999999999999999999999999999999999999999999999999999999999999999999999999999999999999999999999999999999999999999999999999999999999999999)
 (.leaf 9999999999999999999999999999999999999999999999999999999999999999999999999999999999999999999999999999999999999999999999999999999999999999999999999999999906829999999999999999999999999999999999999999999999999999999999999999999999999999999999999999999999999999)))
 (.node 2 (.node 1 (.leaf 9999999999999999999999999999999999999999999999999999999999999999999999999999999999999999999999999999999999999999999999999999999999999999999999999999999999999999999999999999999999999999999999999999999999999999999999999999999999999999999999999999999999999999)
 (.leaf 9999999999999999999999999999999999999999999999999999999999999999999999999999999999999999999999999999999999999999999999999999999999999999999999999999999999999999999999999999999999999999999999999999999999999999999999999999999999999999999999999999999999999999))
 (.node 1 (.leaf 9999999999999999999999999999999999999999999999999999999999999999999999999999999999999999999999999999999999999999999999999999999999999999999999999999999999999999999999999999999999999999999999999999999999999999999999999999999999999999999999999999999999999999)
 (.leaf 9999999999999999999999999999999999999999999999999999999999999999999999999999999999999999999999999999999999999999999999999999999999999999999999999999999999999999999999999999999999999999999999999999999999999999999999999999999999999999999999999999999999999999)))))))))
 (.node 128 (.node 64 (.node 32 (.node 16 (.node 8 (.node 4 (.node 2 (.node 1 (.leaf 9999999999999999999999999999999999999999999999999999999999999999999999999999999999999999999999999999999999999999999999999999999999999999999999999999999999999999999999999999999999999999999999999999999999999999999999999999999999999999999999999999999999999999)
 (.leaf 9999999999999999999999999999068399999999999999999999999999999999999999999999999999999999999999999999999999999999999999999999999999999999999999999999999999999999999999999999999999999999999999999999999999999999999999999999999999999999999999999999999999999999))
 (.node 1 (.leaf 9999999999999999999999999999999999999999999999999999999999999999999999999999999999999999999999999999999999999999999999999999999999999999999999999999999999999999999999999999999999999999999999999999999999999999999999999999999999999999999999999999068499999999)
 (.leaf 9999999999999999999999999999999999999999999999999999999999999999999999999999999999999999999999999999999999999999999999999999999999999999999999999999999999999999999999999999999999999999999999999999999999999999999999999999999999999999999999999999999999999999)))
 (.node 2 (.node 1 (.leaf 9999999999999999068506869999999999999999999999999999999999999999999999999999999999999999999999999999999999999999999999999999999999999999999999999999999999999999999999999999999999999999999999999999999999999999999999999999999999999999999999999999999999999999)
 (.leaf 9999999999999999999999999999999999999999999999999999999999999999999999999999999999999999999999990687999999999999999999999999999999999999999999999999999999999999999999999999999999999999999999999999999999999999999999999999999999999999999999999999999999999999))
 (.node 1 (.leaf 9999999999999999999999999999999999999999999999999999999999999999999999999999999999999999999999999999999999999999999999999999999906889999999999999999999999999999999999999999999999999999999999999999999999999999999999999999999999999999999999999999999999999999)
 (.leaf 9999999999999999999999999999999999990689999999999999999999999999999999999999999999999999999999999999999999999999999999999999999999999999999999999999999999999999999999999999999999999999999999999999999999999999999999999999999999999999999999999999999999999999))))
 (.node 4 (.node 2 (.node 1 (.leaf 9999999999999999999999999999999999999999999999999999999999999999999999999999999999999999999999999999999999999999999999999999999999999999999999999999999999999999999999999999999999999999999999999999999999999999999999999999999999999999999999999999999999999999)
 (.leaf 9999999999999999999999999999999999999999999999999999999999999999999999999999999999990690999999999999999999999999999999999999999999999999999999999999999999999999999999999999999999999999999906919999999999999999999999999999069206939999999999999999999999999999))
 (.node 1 (.leaf 9999999999999999999999999999999999999999999999999999999999999999999999999999999999999999999906949999999999999999999906959999999999999999999999999999999999999999999999990696999999999999999999999999999999999999999999999999999999999999999999999999999999999999)
 (.leaf 9999999999990697999999999999999999999999999999999999999999999999999999999999999999999999999999999999999999999999999999999999069806999999999999999999999999999999999999999999999999999999999999999999999999999999999999999999999999999999999999999999999999999999)))
 (.node 2 (.node 1 (.leaf 9999999999999999999999999999999999999999999907009999999999999999999999999999999999999999999999999999999999999999999999999999999999999999999999999999999999999999999999999999999999999999999999999999999999999999999999999999999999999999999999999999999999999999)
 (.leaf 9999999999999999999999999999999999999999999999999999999999999999999999999999999999999999999999999999070199999999999999999999999999999999999999999999999999999999999999999999999999990702999907039999999999999999999999999999999999999999999999999999999999999999))
 (.node 1 (.leaf 9999070499990705999999999999999999999999999999999999999999999999999999990706999907079999999999999999999999999999999999999999999999990708999999999999999999999999999999999999999999999999999999999999999999999999999999999999999999999999999999999999070999999999)
 (.leaf 9999999999999999999999999999999999999999999999999999999999999999999999999999999999999999999999999999999999999999999999999999999999999999999999999999999999999999999999999999999999990710999999999999999999999999999999990711999907129999999999999999999999999999)))))
 (.node 8 (.node 4 (.node 2 (.node 1 (.leaf 9999999999999999999999999999999999999999999999999999999999999999071399999999999999999999999907149999999999999999999999999999999999999999999999999999999999999999999999999999999999999999999999999999999999999999999999999999999999999999999999999999999999999999)
 (.leaf 9999999907159999999999999999999999990716999999999999999999999999999999999999999999999999999999999999999999999999999999999999999999990717999999999999999999999999999999999999999999999999999999999999999999999999999999999999999999999999999999999999999999999999))
 (.node 1 (.leaf 9999999999990718999999990719999999999999999999999999999999999999999999999999999999999999999999999999999999999999999999999999999999999999999999999999999999999999999999999999999999999999999999999999999999999999999999999999999907209999999999999999999999999999)
 (.leaf 9999999999999999999999999999999999999999999999999999999999999999999999999999999999999999999999999999999999999999999999999999999999999999999999999999999999999999072199999999999999999999999999999999999999999999999999999999999999999999999999999999999999999999)))
 (.node 2 (.node 1 (.leaf 9999999999999999999999999999999999999999999999990722072399999999999999999999999999999999999999999999999999999999999999990724999999999999999999999999999999999999999999999999999999999999999999999999072599999999072699999999999999999999999999999999999999999999)
 (.leaf 9999999999999999999999999999999999999999999999999999999999999999999999999999999999999999999999999999999999999999999999999999999999990727072899999999999999999999999999999999999999999999999999999999999999999999999999999999999999999999999999999999999999999999))
 (.node 1 (.leaf 9999999907299999073099999999999999999999999999999999999999999999999999999999999999999999999999999999999999999999999999999999999999999999999999999999999999999999999999999999999999999999999999999999999999999999999999999999999999999999999999999999999999999999)
 (.leaf 9999999999999999999999999999999999999999999999999999999999999999999999999999999999999999999999999999999999999999999999999999999999999999999999999999999999999999999999999999999999999999999999990731999999990732999999999999999999999999999999999999999999999999))))
 (.node 4 (.node 2 (.node 1 (.leaf 9999999999999999999999999999999999999999999999999999999999999999999999999999999999999999999999999999999999999999999907339999999999999999999999999999999999999999999999999999999999990734999999990735999999999999999999999999999999999999999999999999999999999999)
 (.leaf 9999999999999999999999990736999999999999999999999999999999999999999999999999999999999999999999999999999999999999999999999999999999999999999999999999999999999999999999999999999999999999999999999999999999999999999999999999999999999999999999999999999999999999))
 (.node 1 (.leaf 9999999999999999999999999999999999999999999999999999999999999999999999999999999999999999999999999999999999999999999999999999999999999999999999999999999999999999999999999999999999999999999999999999999999999999999999999999999999999999999999999999999999999999)
 (.leaf 9999999999999999999999999999073799999999999999999999999999999999999999999999999999999999999999999999999999999999999999999999999999999999999999999999999999999999999999999999999999999999999999999999073899999999999999999999999999999999999999999999999999999999)))
 (.node 2 (.node 1 (.leaf 9999999999999999999907399999999999999999999999999999999999999999999999999999999999999999999999999999999999999999999999999999999999999999999999999999999999999999999999999999999999999999999999999999999999999999999999999999999999999999999999999999999999999999)
 (.leaf 9999999999990740999999999999074199999999999999999999999999999999999999999999999999999999999999999999999999999999999999999999999999999999999999999999999999999999999999999999999999999999999999999999999999999999999999999999999999999999999999999999999999990742))
 (.node 1 (.leaf 9999999999999999999999999999999999999999999999999999999999999999999999999999999999999999999999999999999999999999999999999999999999999999999999999999999999999999999999999999999999999999999999999999999999999999999999999999999999999999999999999999999999999999)
 (.leaf 9999999999999999999999999999999999999999999999999999999999999999999999999999999999999999999999999999999907439999999999999999999999999999999999999999999999999999999999999999999999999999999999999999999999999999999999999999999999999999999999999999999999999999))))))
 (.node 16 (.node 8 (.node 4 (.node 2 (.node 1 (.leaf 9999999999999999999999999999999999999999999999999999999999999999999999999999999999999999999999999999999999999999999999999999074499999999999999999999999999999999999999999999999907459999999999999999999999999999999999999999999999999999999907469999999999999999)
 (.leaf 9999999999999999999999999999999999999999999999999999999999999999999999999999999999999999999999999999999999999999999999999999999999999999999999999999999999999999999999999999999999999999999999999999999999999999999999999999999999999999999999990747999999999999))
 (.node 1 (.leaf 9999999999999999999999999999999999999999999999999999999999999999999999999999999999999999999999999999999999990748999999999999999999999999999999999999999999999999999999999999999999999999999999999999999999999999999999999999999999999999999999999999999999999999)
 (.leaf 9999999999999999999999999999999999999999999999999999999999999999999999999999999999999999999999999999999999999999999999999999999999999999999999999999999999999999999999999999999999999999999999999999999999999999999999999999999999999999999999999999999999999999)))
 (.node 2 (.node 1 (.leaf 9999999999999999999999999999999999999999999999999999999999999999999999999999999999999999999999999999999999999999999999999999999999999999999999999999999999999999999999999999999999999999999999999999999999999999999907499999999999999999999999999999999999990750)
 (.leaf 9999999999999999999999999999999999999999999999999999999999999999999999999999999999999999999999999999999999999999999999999999999999999999999999999999999999999999999999999999999999999999999999999999999999999999999999999999999999999999999999999999999999999999))
 (.node 1 (.leaf 9999999999999999999999999999999999999999999999999999999999999999999999999999999999999999999999999999999999999999999999999999999999999999999999999999999999999999999907519999999999999999999999999999999999999999999999999999999999999999999999999999999999999999)
 (.leaf 9999999999999999999999999999999999999999999999999999999999999999999999999999999999999999999999999999999999999999999999999999999999999999999999999999999999999999999999999999999999999999999999999999999999999999999999999999999999999999999999999999999999999999))))
 (.node 4 (.node 2 (.node 1 (.leaf 9999999999999999999999999999999999999999999999999999999999999999999999999999999999999999999999999999999999999999999999999999999999999999999999999999999999999999999999999999999999999999999999999999999999999999999999999999999999999999999999999999999999999999)
 (.leaf 9999999999999999999999999999999999999999999999999999999999999999999999999999999999999999999999999999999999999999999999999999999999999999999999999999999999999999999999999999999999999999999999999999999999999999999999999999999999999999999999999999999999999999))
 (.node 1 (.leaf 9999999999999999999999999999999999999999999999999999999999999999999907529999999999999999999999999999999999999999999999999999999999999999999999999999999999999999999999999999999999999999999999999999999999999999999999999999999999999999999999999999999999999999)
 (.leaf 9999999999999999999999999999999999999999999999999999999999999999999999999999999999999999999999999999999999999999999999999999999999999999999999999999999999999999999999999999999999999999999999999999999999999999999999999999999999999999999999999999999999999999)))
 (.node 2 (.node 1 (.leaf 9999999999999999999999999999999999999999999999999999999999999999999999999999999999999999999999999999999999999999999999999999999999999999999999999999999999999999999999999999999999999999999999999999999999999999999999999999999999999999999999999999999999999999)
 (.leaf 9999999999999999999999999999999999999999999999999999999999999999999999999999999999999999999999999999999999999999999999999999999999999999999999999999999999999999999999999999999999999999999999999999999999999999999999999999999999999999999999999999999999999999))
 (.node 1 (.leaf 9999999999999999999999999999999999999999999999999999999999999999999999999999999999999999999999999999999999999999999999999999999999999999999999999999999999999999999999999999999999999999999999999999999999999999999999999999999999999999999999999999999999999999)
 (.leaf 9999999999999999999999999999999999999999999999999999999999999999999999999999999999999999999999999999999999999999999999999999999999999999999999999999999907539999999999999999999999999999999999999999999999999999999999999999999999999999999999999999999999999999)))))
 (.node 8 (.node 4 (.node 2 (.node 1 (.leaf 9999999999999999999999999999999999999999999999999999999999999999999999999999999999999999999999999999999999999999999907549999999999999999999999999999999999999999999999999999999999999999999999999999999999990755999999999999999999999999999999999999999999999999)
 (.leaf 9999999999999999999999999999999999999999999999999999999999999999999999990756999999999999999999999999999999999999999999999999999999999999999999999999999999999999999999999999999999999999999999999999999999999999999999999999999999999999999999999999999999999999))
 (.node 1 (.leaf 9999999999999999999999999999999999999999999999999999999999999999999999999999999999999999999999999999999999999999999999999999999999999999999999999999999999999999999999999999999999999999999999999999999999999999999999999999999999999999999999999999999999999999)
 (.leaf 9999999999999999999999999999999999999999999999999999999999999999999999999999999999999999999999999999999999999999999999999999999999999999999999999999999999999999999999999999999999999999999999999999999999999999999999999999999999999999999999999999999999999999)))
 (.node 2 (.node 1 (.leaf 9999999999999999999907579999999999999999999999999999999999999999999999999999999999999999999999999999999999999999999999999999999999999999999999999999999999999999999999999999999999999999999999999999999999999999999999999999999999999999999999999999999999999999)
 (.leaf 9999999999999999999999999999999999999999999999999999999999999999999999999999999999999999999999999999999999999999999999999999999999999999999999999999999999999999999999999999999999999999999999999999999999999999999999999999999999999999999999999999999999999999))
 (.node 1 (.leaf 9999999999999999999999999999999999999999999999999999999999999999999999999999999999999999999999999999999999999999999999999999999999999999999999999999999999999999999999999999999999999999999999999999999999999999999999999999999999999999999999999999999999999999)
 (.leaf 9999999999999999999999999999999999999999999999999999999999999999999999999999999999999999999999999999999999999999999999999999999999999999999999999999999999999999999999999999999999999999999999999999999999999999999999999999999999999999999999999999999999999999))))
 (.node 4 (.node 2 (.node 1 (.leaf 9999999999999999999999999999999999999999999999999999999999999999999999999999999999999999999999999999999999999999999999999999999999999999999907589999999999999999999999999999999999999999999999999999999999999999999999999999999999999999999999999999999999999999)
 (.leaf 9999999999999999999999999999999999999999999999999999999999999999999999999999999999999999999999999999999999999999999999999999999999999999999999999999999999999999999999999999999999999999999999999999999999999999999999999999999999999999999999999999999907599999))
 (.node 1 (.leaf 9999999999990760999999999999999999999999999999999999999999999999999999999999999999999999999907619999999999999999999999999999999999999999999999999999999999999999999999999999999999999999999999999999999999999999999999999999999999999999999999999999999999999999)
 (.leaf 9999999999999999999999999999999999999999999999999999999999999999999999999999999999999999999999999999999999999999999999999999999999999999999999999999999999999999999999999999999999999999999999999999999999999999999999999999999999999999999907629999999999999999)))
 (.node 2 (.node 1 (.leaf 9999999999999999999999999999999999999999999999999999999999999999999999999999999999999999999999999999999999999999999999990763999999999999999999999999999999999999999999999999999999999999999999999999999999999999999999999999999999999999999999999999999999999999)
 (.leaf 9999999999999999999999999999999907649999999999999999999999999999999999990765999999999999999999999999999999999999999999999999999999999999999999999999999999999999999999999999999999999999999999999999999999999999076699999999999999999999999999999999999999999999))
 (.node 1 (.leaf 9999999999999999076799999999999999999999999999999999999999999999999999999999999999999999999999999999999999999999999999999999999999999999999999999999999999999999999999999999999999999999999999999999999999999999999999999999999999999999999999999999999999990768)
 (.leaf 9999999999999999999999999999999999999999999999999999999999999999076999999999999999999999999999999999999999999999999999999999999999999999999999999999999999999999999999999999999999999999999999999999999999999999999999999999077099999999999999999999999907719999)))))))
 (.node 32 (.node 16 (.node 8 (.node 4 (.node 2 (.node 1 (.leaf 9999999999999999999999999999077299999999999999999999999999999999999999999999999999999999077399999999999999999999999999999999999999999999077499999999999999999999999999990775999999999999999999999999077699999999999999999999999999999999999999999999999999999999)
 (.leaf 9999999999999999999907779999999907789999999999999999999999999999999999990779999999999999999999990780999999999999999999999999999999999999999999999999999999999999999999999999999999999999999999999999078199999999999999999999999999999999999999999999999999999999))
 (.node 1 (.leaf 9999999999999999999999999999999999999999078299999999999999999999999999990783078499999999999999999999999999999999999999999999999999990785078699999999999999999999999999999999999999999999999999999999999999999999999907879999999907889999999999999999999999999999)
 (.leaf 9999999999999999999999999999999999999999999999999999999999999999999999999999999907890790999999999999999999999999999999999999999999999999999999999999999907919999999999999999999999999999999999999999999999999999999999999999999999999999999999999999079299999999)))
 (.node 2 (.node 1 (.leaf 9999999999999999999999999999079399999999999999999999999999999999999999999999999999999999999999999999999999999999999907949999999999999999999999999999999999999999999907959999999999999999999999999999999999999999999999999999999907969999999999999999999999999999)
 (.leaf 9999999999999999999999999999999999999999999999999999999999999999999999999999999999999999999999990797999999999999999999999999999999999999999999999999999999990798079999999999999999999999999999999999999908009999999999999999999999999999999999999999999999999999))
 (.node 1 (.leaf 9999999999999999999999999999999908019999999999999999999999999999999999999999999999999999999999999999999999999999999999999999999999999999999999999999999999990802999999999999999999999999999999999999080399999999999999999999999999999999999999999999999999999999)
 (.leaf 9999999999999999999999999999999999999999999908049999999908059999999999999999999999999999999999990806999999999999080799999999999999999999999999990808999908099999999908109999999999999999999999999999999999999999999999999999999908119999081299999999999999999999))))
 (.node 4 (.node 2 (.node 1 (.leaf 9999999999999999999999999999999999999999999999999999999999990813999999999999999999999999999999999999999999999999999999999999999999999999999999999999999999999999999999999999999999999999999999999999999999999999999999999999999999999999999999999999999999999999)
 (.leaf 9999999999999999999999999999999999999999999999999999999999999999999999999999999999999999999999999999999999999999999999999999999999999999999999999999999999999999999999999999999999999999999999999999999999999999999999999999999999999999999999999999999999999999))
 (.node 1 (.leaf 9999999999999999999999999999999999999999999999999999999999999999999999999999999999999999999999999999999999999999999999999999999999999999999999999999999999999999999999999999999999999999999999999999999999999999081499999999999999999999999999999999081599990816)
 (.leaf 9999999999999999999999999999999999999999999999999999999999999999999999999999999999999999999999999999999999999999999999999999999999999999999999999999999999999999081799999999999999999999999999999999999999999999999999999999999999999999999999999999999999999999)))
 (.node 2 (.node 1 (.leaf 9999999999999999999999999999999999999999999999999999999999999999999999999999999999999999999999999999999999990818999999999999999999999999999999999999999999999999999999999999999999999999999999999999999999999999999999999999999999999999999999999999999999999999)
 (.leaf 9999999999999999999999999999999999999999999999999999999999999999999999999999999999990819999999999999999999999999999999999999999999999999999999999999999999999999999999999999999999999999999999999999999999999999999999999999999999999999999999999999999999999999))
 (.node 1 (.leaf 9999999999999999999999999999999999999999999999999999999999999999999999999999999999999999999999999999999999999999999999999999999999999999999999999999999999999999999999999999999999999999999999999999999999999999999999999999999999999999999999999999999999999999)
 (.leaf 9999999999999999999999999999999999999999999999999999999999999999999999999999999999999999999999999999999999999999999999999999999999999999999999999999999999999999999999999999999999999999999999999999999999999999999999999999999999999999999999999999999999999999)))))
 (.node 8 (.node 4 (.node 2 (.node 1 (.leaf 9999999999999999999999999999999999999999999999999999999999999999999999999999999999999999999999999999999999999999999999999999999999999999999999999999999999999999999999999999999999999999999999999999999999999999999999999999999999999999999999999999999999999999)
 (.leaf 9999999999999999999999999999999999999999999999999999999999999999999999999999999999999999999999999999999999999999999999999999999999999999999999999999999908209999999999999999999999999999999999999999999999999999999999999999999999999999999999999999999999999999))
 (.node 1 (.leaf 9999999999999999999999999999999999999999999999999999999999999999999999999999999908219999999999999999999999999999999999999999999999999999999999999999999999999999999999999999999999999999999999999999999999999999999999999999999999999999999999999999999999999999)
 (.leaf 9999999999999999999999999999999999999999999999999999999999999999999999999999999999999999999999999999999999999999999999999999999999999999999999999999999999999999999999999999999999999999999999999999082299999999999999999999999999990823999999999999999999999999)))
 (.node 2 (.node 1 (.leaf 9999999999999999999999999999999999990824999999999999999999999999999999999999999999999999999999999999999999999999999999999999999999999999999999999999999999999999999999999999999999999999999999999999999999999999999999999999999908259999999999999999999908269999)
 (.leaf 9999999999999999999999999999999999999999999999999999999999999999999999999999999999999999999999999999999999999999999999999999999999999999999999999999999999999999999999999999999999999999999999999999999908279999999999999999999999999999999999999999999999999999))
 (.node 1 (.leaf 9999999999999999999999999999999999999999999999999999999999999999999999999999999999999999999908289999999999999999999999999999999999999999999999999999999999999999999999999999999999999999999999999999999999999999999999999999999999999999999999999999999999999999)
 (.leaf 9999999999999999999999999999999999999999999999999999999999999999999999999999999999999999999999999999999999999999999999999999999999999999999999999999999999999999999999999999999999999999999999999999999999999999999999999999999999999999999999999999999999999999))))
 (.node 4 (.node 2 (.node 1 (.leaf 9999999999999999999999999999999999999999999999999999999999999999999999999999999999999999999999999999999999999999999999999999999999999999999999999999999999999999999999999999999999999999999999999999999999999999999999999999999999999999999999999999999999999999)
 (.leaf 9999999999999999999999999999999999999999999999999999999999999999999999999999999999999999999999999999999999999999999999999999999999999999999999999999999999999999999999999999999999999999999999999999999999999999999999999999999999999999999999999999999999999999))
 (.node 1 (.leaf 9999999999999999999999999999999999999999999999999999999999999999999999999999999999999999999999999999999999999999999999999999999999999999999999999999999999999999999999999999999999999999999999999999999999999999999999999999999999999999999999999999999999999999)
 (.leaf 9999999999999999999999999999999999999999999999999999999999999999999999999999999999999999999999999999999999999999999908299999999999999999999999999999999999999999999999999999999999999999999999999999999999999999999999999999999999999999999999999999999999999999)))
 (.node 2 (.node 1 (.leaf 9999999999999999999999999999999999999999999999999999999999999999999999999999999999999999083099999999999999999999999999999999999999999999999999999999999999999999999999999999999999999999999999999999999999999999999999999999999999999999999999999999999999999999)
 (.leaf 9999999999999999999999999999999999999999999999999999999999999999999999999999999999999999999999999999999999999999999999990831999999999999999999999999999999999999999999999999999999999999999999999999999999999999999999999999999999999999999999999999999999999999))
 (.node 1 (.leaf 9999999999999999999999999999999999999999999999999999999999999999999999999999999999999999999999999999999999999999999999999999999999999999999999999999999999999999999999999999083299999999999999999999999999999999999999999999999999999999999999999999999999999999)
 (.leaf 9999999999999999999999999999999999999999999999999999999999999999999908339999999999999999999999999999999999999999999999999999999999999999999999999999999999999999999999999999999999999999999999999999999999999999999999999999999999999999999999999999999999999999))))))
 (.node 16 (.node 8 (.node 4 (.node 2 (.node 1 (.leaf 9999999999999999999999999999999999999999999999999999999999999999999999999999999999999999999999999999999999999999999999999999999999999999999999999999999999999999999999999999999999999999999999999999999999999999999999999999999999999999999999999999999999999999)
 (.leaf 9999999999999999999999999999999999999999999999999999999999999999999999999999999999999999999999999999999999999999999999999999999999999999999999999999999999999999999999999999999999999999999999999999999999999999999999999999999999999999999999999999999999999999))
 (.node 1 (.leaf 9999999999999999999999999999083499999999999999999999999999999999999999999999999999999999999999999999999999999999999999999999999999999999999999999999999999999999999999999999999999999999999999999999999999999999999908359999999999999999999999999999999999999999)
 (.leaf 9999999999999999999999999999999999999999999999999999999999999999999999999999999999990836999999999999999999999999999999999999999999999999999999999999999999999999999999999999999999999999999908379999999999999999999999999999999999999999999999999999999999999999)))
 (.node 2 (.node 1 (.leaf 9999999999999999999999999999999999999999999908389999999908399999999999999999999999999999999999999999999999999999999999999999999999999999999999999999999999999999999999999999999999999999999999999999999999990840999999999999999999999999999999999999999999999999)
 (.leaf 9999999999999999999999999999999999999999999999999999999999999999999999999999999999999999999999999999999999999999999999999999999999999999999999999999999999999999999999999999999999999999999999999999999999999999999908419999999999999999999999999999999999999999))
 (.node 1 (.leaf 9999999999999999999999999999999999999999999999999999999999999999999999999999999999999999999999999999999999999999999908429999999999999999999999999999999908439999999999999999999999999999999999999999999999999999999908449999999999999999999999999999999999999999)
 (.leaf 9999999999999999999999999999999999999999084599999999999999990846999999999999999999999999999999999999999999999999999999999999999999999999999999999999999999999999999999999999999999999999999999999999999999999999999908479999999999999999999999999999999999999999))))
 (.node 4 (.node 2 (.node 1 (.leaf 9999999908489999999999999999999999999999999999999999999999999999999999999999999999999999999999999999999999999999999999999999999999999999084999999999999908509999999999999999999999990851999908529999999999999999999999999999999999999999999908539999999908549999)
 (.leaf 855999999999999999999999999999999999999999999999999999999999999999908569999999999999999999999999999999999999999999999999999999999999999999999999999999999999999999999999999999999999999999999999999999999999999085799999999999999999999999999999999999999999999))
 (.node 1 (.leaf 9999999999999999999999999999999999999999999999999999999999999999999999999999999999999999999999999999999999999999999999999999999908589999999999999999999999999999999999990859999908600861999999999999999999999999999999999999999999999999999999999999086208639999)
 (.leaf 9999999999999999999999999999999999999999999999999999999999999999999999999999999908649999999999999999999999999999999999999999999999999999999999999999999999999999999999999999999999999999999999999999999999999999999999999999999999999999999999999999999999999999)))
 (.node 2 (.node 1 (.leaf 9999999999999999999999999999999999999999999999999999999999999999999999999999999999999999999999999999999999999999999999999999999999999999999999999999999999999999999999999999999999999999999999999999999999999999999999999999999999999999999999999999999999990865)
 (.leaf 866999999999999999999999999999999999999086799990868999999999999999999999999999908699999999999999999999999999999999999999999999999999999999908709999087199999999999999999999999999999999999999999999999999999999999999999999999999999999999999999999999999999999))
 (.node 1 (.leaf 9999999999999999999999999999999999999999999999999999999999999999999999999999999999999999999999999999999999999999999999999999999999999999999999999999999999999999999999999999999999999999999999999999999999999999999999999999999999999999999999990872999999999999)
 (.leaf 9999999999999999999999999999999999999999999999999999999999999999999999999999999999999999999999999999999999999999999999999999999999999999999999999999999999999999999999999999999999999999999999999999999999999999999999999999999999999999999999999999999999999999)))))
 (.node 8 (.node 4 (.node 2 (.node 1 (.leaf 9999999999999999999999999999999999999999999999999999999999999999999999999999999999999999999999999999999999999999999999999999999999999999999999999999999999999999999999999999999999999999999999999999999999999999999999999999999999999999999999999999999999999999)
 (.leaf 9999999999999999999999999999999999999999999999999999999999999999999999999999999999999999999999999999999999999999999999999999999999999999999999999999999999999999999999999999999999999999999999999999999999999999999999999999999999999999999999999999999999999999))
 (.node 1 (.leaf 9999999999999999999999999999999999999999999999999999999999999999999999999999999999999999999999999999999999999999999999999999999908739999999999999999999999999999999999999999999999999999999999999999999999999999999999999999999999999999999999999999999999999999)
 (.leaf 9999999999999999999999999999999999999999999999999999999999999999999999999999999999999999999999999999999999999999999999999999999999999999999999999999999999999999999999990874999999999999999999999999999999999999999999999999999999999999999999999999999908759999)))
 (.node 2 (.node 1 (.leaf 9999999999999999999999999999999999999999999999999999999999999999999999999999999999999999999999999999999999999999999999999999999999999999999999999999999999990876999999999999999999999999999999999999999908779999999999999999087899999999999999990879999999999999)
 (.leaf 9999999999999999999999999999999999999999999999999999999999999999999999999999999999999999999999999999999999999999999999999999999999999999999908809999999999999999999999999999999999999999999999999999999999999999999999999999999999999999999999999999999999999999))
 (.node 1 (.leaf 9999999999999999999999999999999999999999999999999999999999999999999999999999999999999999999999999999999999999999999999999999999999999999999999999999999999999999999999999999999999999999999999999999999999999999999999999999999999999999999999999999999999999999)
 (.leaf 9999999999999999999999999999999999999999999999999999999999999999999999999999999999999999999999999999999999999999999999999999999999999999999999999999999999999999999999999999999999999999999999999999999999999999999999999999999999999999999999999999999999999999))))
 (.node 4 (.node 2 (.node 1 (.leaf 9999999999999999999999999999999999999999999999999999999999999999999999999999999999999999999999999999999999999999999999999999999999999999999999999999999999999999999999999999999999999999999999999999999999999999999999999999999999999999999999999999999999999999)
 (.leaf 9999999999999999999999999999999999999999999999999999999999999999999999999999999999999999999999999999999999999999999999999999999999999999999999999999999999999999999999999999999999990881999999999999999999999999999999999999999999999999999999999999999999999999))
 (.node 1 (.leaf 9999999999999999999999999999999999999999999999999999999999999999999999999999999999999999999999999999999999999999999999999999999999999999999999999999999999999999999999999999999999999999999999999999999999999999999999999999999999999999088299999999999999999999)
 (.leaf 9999999999999999999999999999999999999999999999999999999999999999999999999999999999999999999999999999999999999999999999999999999999999999999999999999999999999999999999999999999999999999999999999999999999999999999999999999999999999999999999999999999999999999)))
 (.node 2 (.node 1 (.leaf 9999999999999999999999999999999999999999999999999999999999999999999999999999999999999999999999999999999999999999999999999999999999999999999999999999999999999999999999999999999999999999999999999999999999999999999999999999999999999999999999999999999999999999)
 (.leaf 9999999999999999999999999999999999999999999999999999999999999999999999999999999999999999999999999999999999999999999999999999999999999999999999999999999999999999999999999999999999999999999999999999999999999999999999999999999999999999999999999999999999999999))
 (.node 1 (.leaf 9999999999999999999999999999999999999999999999999999999999999999999999999999999999999999999999999999999999999999999999999999999999999999999999999999999999999999999999999999999999999999999999999999999908839999999999999999999999999999999999999999999999999999)
 (.leaf 9999999999999999999999999999999999999999999999999999088499999999999999999999999999999999999999999999999999999999999999999999999999999999999999999999999908859999999999999999088699999999999999999999999999999999999999999999999999999999999999999999999999999999))))))))
 (.node 64 (.node 32 (.node 16 (.node 8 (.node 4 (.node 2 (.node 1 (.leaf 9999999999999999999999999999999999999999999999999999999999999999999999999999999999999999999999999999999999999999999999999999999999999999999999999999999999999999999999999999999999999999999908879999999999999999999999999999999999999999999999999999999999999999)
 (.leaf 9999999999999999999999999999999999999999999999999999999999999999999999999999999999999999999999999999999999999999999999999999999999999999999999999999999999999999999999999999999999999999999999999999999999999999999999999999999999999999999908889999088999999999))
 (.node 1 (.leaf 9999999999999999999908909999999999999999999999999999999999999999999999999999999999999999999908919999999999999999999999999999999999999999999999999999089299999999999999999999999999999999999999999999999999999999999999999999999908939999999999990894999999999999)
 (.leaf 9999999908959999999999999999999999990896999908979999999999999999999999999999999999990898999999999999999999999999999999999999089999999999999999999999999999999999999999999999999909000901090299999999999999999999999999999999090399999999090499999999999999990905)))
 (.node 2 (.node 1 (.leaf 9999999999999999999999999999999999999999999999999999999999999999999999999999999999999999999999999999999999999999999999999999999999999999999999999999999999999999999999999999999999999999999999999999999999990906999999999999999999999999999909079999999999999999)
 (.leaf 9999999999999999999999999999999999999999999999999999999999999999999999999999999999999999999999999999999999999999999999999999999999999999999999999999999999999999999999999999999999999999999999999999999999999999999999999999999999999999999999999999999999999999))
 (.node 1 (.leaf 9999999999999999999999999999999999999999999999999999999999999999999909089999999999999999999999999999999909099999091099999999999999999999999999999999999999999999999999999999999999999999999999999999999999999999999999999999999999999999999999999999999999999999)
 (.leaf 9999999999999999091199999999999999999999999999999999999999990912999999999999999999999999999999999999999999999999999999999999999999999999999999990913999999999999999999999999999999999999999999999999999999999999999999990914999909150916999999999999091799999999))))
 (.node 4 (.node 2 (.node 1 (.leaf 9999999999999999999999999999999999999999999999999999999909189999999999999999999999999999999999999999999999999999999999999999999999999999999999999999999999999999999999999999999999999999999999999999999999999999999999999999999999999999999999999999999999999999)
 (.leaf 9999999999999999999999999999999999999999999999999999999999999999999999999999999999999999999999999999999999999999999999999999999999999999999999999999999999999999999999999999999999999999999999999999999999999999999999999999999999999999999999999999999999999999))
 (.node 1 (.leaf 9999999999999999999909199999999999999999999999999999999999999999999999999999999999999999999999999999999999999999999999999999999999999999999999999999999999999999999999999999999999999999999999999999999999999999999999999999999999999999999999999999999999999999)
 (.leaf 9999999909209999999999999999999999999999999999999999999999999999999999999999999999999999999999999999999999990921999999999999999999999999999999999999092299999999999999999999999999999999999999999999999999999999999999999999999999999999999999999999999999999999)))
 (.node 2 (.node 1 (.leaf 9999999999999999999999999999999999999999999909239999999999999999999999999999999999999999999999999999999999999999999999999999999999999999999999999999999999999999999999999999999999999999999999999999999999999999999999999999999999999999999999999999999999999999)
 (.leaf 9999999999999999999999999999999999999999999999999999999999999999999999999999999999999999999999999999999999999999999999999999999999999999999999999999092499999999999999999999999999999999999999999999999999999999999999990925092699999999999999999999999999999999))
 (.node 1 (.leaf 9999999999999999999999999999999999999999999999999999999999999999999999999999999999999999999999999999999999999999999999999999999999999999999999999999999999999999999999999999999999999999999999999999999999999999999999999999999999999999999999999999999999999999)
 (.leaf 9999999999999999999999999999999999999999999999999999999999999999999999999999999999999999999999999999999999999999999999999999999999999999999999999999999999999999999999999999999999999999999999999999999999999999999999999999999909279999999999999999999999999999)))))
 (.node 8 (.node 4 (.node 2 (.node 1 (.leaf 9999999999999999999999999999999999999999999999999999999999999999999999999999999999999999999999999999999999999999999999999999999999999999999999999999999999999999999999999999999999999999999999999999999999999999999999999999999999999999999999999999999999999999)
 (.leaf 9999999999999999999999999999999999999999999999999999999999999999999999999999999999999999999999999999999999999999999999999999999999999999999999999999999999999999999999999999999999999999999999999999999999999999999999999999999999999999999999999999999999999999))
 (.node 1 (.leaf 9999999999999999999999999999999999999999999999999999999999999999999999999999999999999999999999999999999999999999999999990928999999999999999999999999999999999999999999999999999999999999999999999999999999999999999999999999999999999999999999999999999999999999)
 (.leaf 9999999999999999999999999999999999999999999999999999999999999999999999999999999999999999999999999999999999999999999999999999999999999999999999999999999999999999999999999999999999999999999999999999999999999999999999999999999999999999999999999999999909299999)))
 (.node 2 (.node 1 (.leaf 9999999999999999999999999999999999999999999999999999093009319999999999999999999999999999999999999999999999999999999999999999999999999999999999999999999999999999999999999999999999999999999999999999999999999999999999999999999999999999999999990932999999999999)
 (.leaf 9999999999999999999999999999999999999999093399999999999999999999999999999999999999999999093499999999999999999999999999999999999999999999999999990935999999999999999999999999999999999999093699999999999999999999999999999999093799999999999999999999999999999999))
 (.node 1 (.leaf 9999999999999999999999999999999999999999999999999999999999999999999999999999999999999999999999999999999999999999999909389999999999999999999999999999999999999999999999999999999999999999999999990939999999999999094009419999999999999999999999999999999999999999)
 (.leaf 9999094299999999999999990943999999999999999999999999999999999999999999999999999909440945999999999999999999999999999999999999999999999999999999990946999999999999999999990947999999999999999999999999999999999999999909489999999999990949999999999999095099999999))))
 (.node 4 (.node 2 (.node 1 (.leaf 9999999999999999999909519999999999999999999999999999999999999999999999999999999999999999999999999999999909529999999999999999999999999999999999990953999999999999999999999999999999999999999999999999999999999999999999999999999999990954999999999999999999999999)
 (.leaf 9999999999999999999999999999999999999999999999999999999909559999999999999999999999999999999999999999999999999999999999999999999999999999999909569999999999999999999999999999999909579999999999999999999999999999999999999999999999999999999999999999999999999999))
 (.node 1 (.leaf 9999999999999999999999999999999999999999999909589999999999999999999999999999999999990959999999999999999999999999999999999999999999999999999999999999999999999999999909609999999999999999999999999999999999999999999999999999999999999999999999999999999999999999)
 (.leaf 9999096199999999999999999999999999999999999999999999999999999999999999999999999999999999999999999999999999999999999909629999999999990963999999999999999999999999999999999999999999999999096499999999999999999999999999999999999999999999999999999999999999999999)))
 (.node 2 (.node 1 (.leaf 9999999999999999999999999999999909659999999999999999999999999999999999999999999999999999999999999999999999999999999999999999999999999999999999999999999999999999999999999999999999999999999999999999999999999999999999999999999999999999999999999999999999999999)
 (.leaf 9999999999999999999999999999999999999999999999999999999999999999999999999999999999999999999999999999999999999999999999999999999999999999999999999999999999999999999909669999999999999999999999999999999999999999999999999999999999999999999999999999999999999999))
 (.node 1 (.leaf 9999999999999999999999999999999909679999999999999999999999999999999999999999999999999999999999999999999999999999999999999999999999999999999999999999999999999999999999999999096899999999999999999999999999999999999999999999999999999999999999999999999999999999)
 (.leaf 9999999999999999999999999999999999999999096999999999999999999999999999999999999999999999999999999999999999999999999999999999999999999999097099999999999999999999999999999999999909719999999999999999999999999999999999999999999999999999999999999999999999999999))))))
 (.node 16 (.node 8 (.node 4 (.node 2 (.node 1 (.leaf 9999999999999999999999999999999999999999999999999999999999990972999999999999999999999999999999999999999999999999999999999999999999999999999999999999999999999999999999999999999999999999999999999999999999999999999999999999999999999999999999999999999999999999)
 (.leaf 9999999999999999999999999999999999999999999999999999999999999999999999999999999999999999999999999999999999999999999999999999999999999999999999999999999999999999999999999999999999999999999999999999999999999999999999999999999999999999999999999999999999999999))
 (.node 1 (.leaf 9999999999999999999999999999999999999999999999999999999999999999999999999999999999999999999999999999999999999999999999999999999999999999999999999999999999999999999999999999999999999999999999999999999999999999999999999999999909739999999999999999999999999999)
 (.leaf 9999999999999999999999999999999999999999999999999999999999999999999999999999999999990974999999999999999999999999999999999999999999999999999999999999999999999999999999999999999999999999999999999999999999999999999999999999999999999999999999999999999999999999)))
 (.node 2 (.node 1 (.leaf 9999999999999999999999999999999999999999999999999999999999999999999999999999999999999999999999999999999999999999999999999999999999999999999999999999999999999999999999999999999999999999999999999999999999999999999999999999999999999999999999999999999999999999)
 (.leaf 9999999999999999999999999999999999999999999999999999999999999999999999999999999999999999999999999999999999999999999999999999999999999999999999999999999999999999999999999999999999999999999999999999999999999999999999999999999999999999999999999999097599999999))
 (.node 1 (.leaf 9999999999999999999999999999999999999999999999999999999999999999999999999999999999999999999999999999999999999999999999999999999999999999999999999999999999999999999999999999999999999999999999999999999999999999999999999999999999999999999999999999999999999999)
 (.leaf 9999999999999999999999999999999999990976999999999999999999999999999999999999999999999999999999999999999999999999999999999999999999999999999999999999097799999999999999999999999999999999097899999999999999999999999999999999999999999999999999999999999999999999))))
 (.node 4 (.node 2 (.node 1 (.leaf 9999097999999999999999999999999999999999999999999999999999999999999999999999999999999999999999999999999999990980999999999999999999990981999999999999999999999999999999999999098299999999999909839999098409859999999999999999999999999999999999999999999999999999)
 (.leaf 9999999999999999999999999999999999999999999999999999999999999999999999999999999999999999999999999999999999999999999999999999999999999999999999990986999999999999999999999999098799999999999999999999098899999999999999999999999999999999999999999999999999999999))
 (.node 1 (.leaf 9999999999999999999999999999999999999999999999999999999999999999999999999999999999999999999999999999999999999999999999999999999999999999999999999999999999990989999999999999999999999999999999990990999999999999999999999999099199999999999909929999999999999999)
 (.leaf 9999999999999999999999999999999999999999999999999999999999999999999999999999999999999999999999999999999999999999999999999999999999999999999999999999999999999999999999999999999999999999999999999999999999999999999999999999999999999999999999999999999999999999)))
 (.node 2 (.node 1 (.leaf 9999999999999999999999999999999999999999999999999999999999999999999999999999999999999999999999999999999999999999999999999999999999999999999999999999999999999999999999999999999999999999999999999999999999999999999999999999999999999999999999999999999999999999)
 (.leaf 9999999999999999999999999999999999999999999999999999999999999999999999999999999999999999999999999999999999999999999999999999999999999999999999999999999999999999999999999999999999999999999999990993999999990994999999999999999999999999999999999999999999999999))
 (.node 1 (.leaf 9999999909959999999999999999999999999999999999999999999999990996999999999999999999999999999999999999999909979999999909989999999909999999999999999999999999999999999910009999999999999999999999999999999999999999999999999999999999999999999999991001999999999999)
 (.leaf 9999999999999999999999999999999999999999999999999999999999999999999999999999999999999999999999999999999910029999999999999999100399999999999999999999999999999999999999999999999999999999999999999999999999999999999999999999999999999999999999999999999999999999)))))
 (.node 8 (.node 4 (.node 2 (.node 1 (.leaf 9999999999999999999999999999999999999999999999999999999999999999999999999999999999999999999999999999999999999999999999999999999999999999999999999999999999999999999999999999999999999999999999999999999999999999999999999999999999991004999999999999999999999999)
 (.leaf 9999999999999999999910059999999999999999999999999999999999999999999999999999999999999999999999999999999999999999999999999999999999999999999999999999999999999999999999999999999999999999999999999999999999999999999999999999999999999999999999999999999999999999))
 (.node 1 (.leaf 9999999999999999999999999999999999999999999999999999999999999999999999999999999999999999999999999999999999999999999999999999999999999999999999999999999999999999999999999999999999999999999999999999999999999999999999999999999999999999999999999999999999999999)
 (.leaf 9999999999999999999999999999999999999999999999999999999999999999999999999999999999999999999999999999100699999999999999999999999999999999999999999999999999999999999999999999999999999999999999999999999999999999999999999999999999999999999999999999999999999999)))
 (.node 2 (.node 1 (.leaf 9999999999999999999999999999999999999999999999999999999999999999999999999999999999999999100799999999999999999999999999999999999999999999999999991008999999999999999999999999999999999999999999991009999999999999999999999999999999999999999910109999999999999999)
 (.leaf 9999999999999999999999999999999910111012999999999999999999999999999999999999999999999999999999999999999999999999999999999999999999999999999999999999999999999999999999999999999999999999999910139999999999999999999999991014999999999999999999999999999999999999))
 (.node 1 (.leaf 9999999999999999999910159999999999999999999999999999999999999999999999999999101699999999999910179999999999999999999999999999999999999999999999999999999999991018999999999999999910199999999999999999999910209999999999999999999999999999102199991022999999999999)
 (.leaf 9999102310249999999999999999999999999999999999999999999999999999999999999999999999999999999999999999999999999999999999999999999910259999999999991026999999999999999999999999999999999999999999999999999999999999999999999999999999999999999999999999999999999999))))
 (.node 4 (.node 2 (.node 1 (.leaf 9999999999999999999999991027999999999999999999999999999999999999999999999999999910289999999999999999999999999999999999999999999999999999999999999999999999999999999999999999999999999999999999999999999999999999999999999999999999999999999999999999999999999999)
 (.leaf 9999999910299999999999999999999910309999999999999999999999999999999999999999999999999999999999999999999999999999999999999999999999999999999999999999999999999999999999999999999999999999999999999999999999999999999999999999999999999999999999999999999999999999))
 (.node 1 (.leaf 9999103199999999999999999999999999999999999999999999999999999999999999999999999999999999999999999999999999999999999999999999999999999999999999999999999999999999999999999999999999999999999999999999999999999999999999991032999999999999999910339999999999999999)
 (.leaf 9999999999999999999999999999999999999999999999999999103499999999999999999999999999999999999999999999999999999999999999999999999999999999999999999999999999999999999999999999999999999999999999999999999999999999999999999999999999999999999999999999103510369999)))
 (.node 2 (.node 1 (.leaf 9999999999999999999999999999999999999999999999999999999999999999999999999999999999999999999999999999999999999999999999999999999999999999999999999999999999999999999999999999999999999999999999999999999999999999999999999999999999999999999999999999999999999999)
 (.leaf 9999999999999999999999999999999999999999999999999999999999999999999999999999999999999999999999999999999999999999999999999999999999999999999999999999999999999999999999999999999999999999999999999999999999999999999999999999999999999999999999999999999999999999))
 (.node 1 (.leaf 9999999999999999999999999999999999999999999999999999999999999999999999999999999999999999999999999999999999999999999999999999999999999999999999999999999999999999999999999999999999999999999999999999999999999999999999999999999999999999999999999999999999999999)
 (.leaf 9999999999999999999999999999999999999999999999999999999999999999999999991037999999999999999999999999999999999999999910389999999999999999999999999999999999999999999999999999103999999999999999999999999999999999999999999999999999999999999910409999999999999999)))))))
 (.node 32 (.node 16 (.node 8 (.node 4 (.node 2 (.node 1 (.leaf 9999999999999999999999999999999999999999999999999999999999999999999999999999999999999999999999999999999999999999999999999999999910411042999999999999999999999999999999999999999999999999999999999999104399999999999999999999999999999999999999999999999999999999)
 (.leaf 9999999999999999999999999999999999999999999999999999999999999999999999999999999999999999999999999999999999999999999999999999999999999999999999999999999999999999999999991044999999991045999999999999999910469999999999999999104799999999999999999999999999999999))
 (.node 1 (.leaf 9999999999999999999910489999999999999999999999999999999999999999999999999999999999999999999910499999105010519999999999999999999999999999105299999999999999999999999999999999999999999999999999999999999999999999105399991054999999999999999999999999999999999999)
 (.leaf 9999999999999999999999999999999999999999999999999999999999999999999910559999999999991056999999999999999999999999999999999999999999999999999999991057999999999999999999999999999999999999999999999999999999999999999999999999999999999999999999999999999999999999)))
 (.node 2 (.node 1 (.leaf 9999999999999999999999999999999999999999999999999999999999999999999999999999999999999999999999999999999999999999999999999999999999999999999999999999999999999999999999999999999999999999999999999999999999999999999999999999999999999999999999999999999999999999)
 (.leaf 9999999999999999999999999999999999999999999999999999999999999999999999999999999999999999999999991058999999999999999999999999999999999999999910599999999999999999106099999999999999999999999999999999999999999999106199999999999999991062999999999999999999999999))
 (.node 1 (.leaf 9999999999999999999999999999999999999999999999999999999999999999999999999999999999999999999999999999999999999999999999999999999999999999999999999999999999999999999999999999999999999999999999999999999999999999999999999999999999999999999999999999999999999999)
 (.leaf 9999999999999999999999999999999999999999999999999999999999999999999999999999999999999999999999999999999999999999999999999999999999999999999999999999999999999999999999999999999999999999999999999999999999999999999999999999999999999999999999999999999999999999))))
 (.node 4 (.node 2 (.node 1 (.leaf 9999999999999999999999999999999999999999999999999999999999999999999999999999999999999999999999999999999999999999999999999999999999999999999999999999999999999999999999999999999999991063999999999999106499999999999999999999999999999999999999999999999999999999)
 (.leaf 9999999999999999999999999999999999999999999999999999999999999999999999999999999999999999106599999999999999999999999999999999999999999999999999999999999999999999999999999999999999999999999999999999999999999999999999999999999999999999999910669999999999999999))
 (.node 1 (.leaf 9999999999999999999999999999999999999999999999999999999999999999999999999999999999999999999910679999999999999999999999999999999999999999999999999999999999999999106899999999999999999999999999999999999999999999999999999999999999999999999999999999999999999999)
 (.leaf 9999999999999999999999999999999999999999106999999999999999991070999999999999999999999999999999999999999999999999999999999999107199999999999999999999999999999999999910729999999999999999999999999999999999999999999999999999107399999999999999999999999999999999)))
 (.node 2 (.node 1 (.leaf 9999999999999999999999991074999999999999999910759999999999999999999999999999999999999999999999999999999999999999999999999999999999999999999999999999999910769999999999999999107799999999999999999999107899999999999999999999999999999999999999999999999999999999)
 (.leaf 9999999999999999999999999999999999999999999999999999999999999999999999999999999999999999999999999999999999999999999999999999999999999999999999999999999999999999999999999999999999999999999999999999999999999999999999999999999999999999999999999999999999999999))
 (.node 1 (.leaf 9999999999999999999999991079999999999999999999999999999999999999999999999999999999999999999910809999999999999999999999999999999999999999999910819999999999999999999999999999999999999999999999999999999999999999999999999999999999991082999999999999999999999999)
 (.leaf 9999999999999999999999999999999999999999999999999999999999999999999999999999999999999999999999999999999999999999999999999999999999999999999999999999999999999999999999999999999999999999999999999999999999999999999999999999999999999999999999999999999999999999)))))
 (.node 8 (.node 4 (.node 2 (.node 1 (.leaf 9999999999999999999999999999999999999999999999999999999999999999999999999999999999999999999999999999999999999999999999999999999999999999999999999999999999999999999999999999999999999999999999999999999999999999999999999999999999999999999999999999999999999999)
 (.leaf 9999999999999999999999999999999999999999999999999999999999999999999999999999999999999999999999999999999999999999999999999999999999999999999999999999999999999999999999999999999999999999999999999999999999999999999999999999999999999999108399999999999999999999))
 (.node 1 (.leaf 9999999999999999999999999999999999991084999999999999999999999999999999999999999999999999999999999999999999999999999999999999999999999999999999999999999999999999999999999999999999999999999999999999999999999999999999999999999999999999999999999999108599999999)
 (.leaf 9999999999999999999999999999999999999999999999991086999999999999999999999999999999999999999999999999999910871088999999999999999999999999999999991089999999999999999910901091999999999999999999991092109399999999999999999999109499999999999999999999999999999999)))
 (.node 2 (.node 1 (.leaf 9999999999999999999999999999999999999999999999999999999999999999999999999999999999999999999999999999999999999999999999999999999999999999999999999999999999999999999999999999999999999999999999999999999999999999999999999999999999999999999999999999999999999999)
 (.leaf 9999999999999999999999999999999999999999999999999999999999999999999999999999999999999999999999999999999999999999999999999999999999999999999999999999999999999999999999999999999999999999999999999999999999999999999999999999999910959999999999999999999999999999))
 (.node 1 (.leaf 9999999999999999999999999999999999999999999910969999999999999999999999999999999999999999999999999999999999999999999999999999999999999999999999999999999999999999999999999999999999999999999999999999999999999999999999999999999999999999999999999999999999999999)
 (.leaf 9999999999999999999999999999999999999999999999999999999999999999999999999999999999999999999999999999999999999999999999999999999999999999999999999999999999999999999999999999999999999999999999999999999999999999999999999999999999999999999999999999999999999999))))
 (.node 4 (.node 2 (.node 1 (.leaf 9999999999999999999999999999999999999999999999999999999999999999999999999999999999999999999999999999999999999999999999999999999999999999999999999999999999999999999999999999999999999999999999999999999999999999999999999999999999999999999999991097999999999999)
 (.leaf 9999999999999999999999999999999999999999999999999999999999999999999999999999999999999999999999999999999999999999999999991098999999999999999999999999999999999999999999999999999999999999999999999999999999999999999999999999999999999999999999999999999999991099))
 (.node 1 (.leaf 9999999999999999999999999999110099999999999911019999999999999999999999999999999999999999999999999999999999999999999999999999110299999999999999999999999999999999999999999999999999999999999911039999999999999999999911049999999999999999999999999999999999999999)
 (.leaf 1105999999991106999999999999999999999999999999999999999999999999999999999999999999999999999999999999999999999999999999999999999999999999110799999999999999999999999999999999999999999999999999999999999999999999999999999999999999999999999911089999999999999999)))
 (.node 2 (.node 1 (.leaf 9999999999999999999999999999999999999999999999999999999999999999999999999999999999999999999999999999999999999999999999999999999999999999999999999999999999999999999999991109999999999999999999999999999999999999999999999999999999999999999999999999999999999999)
 (.leaf 9999999999999999999999999999999999999999999999999999999999999999999999999999999999999999999999999999999999999999999999999999999999999999999999999999999999999999999999999999999999999999999999999999999999999999999999999999999999999999999999999999111099999999))
 (.node 1 (.leaf 9999999999999999999999999999999999999999999999999999999999991111999999999999999999999999999999999999999999999999999999999999999999999999999999999999999999999999999999999999999999999999999999999999999999999999999999999999999999999999999999999999999999999999)
 (.leaf 9999999999999999999999999999999999999999999999999999999999999999999999999999999999999999999999999999999999999999111299999999111399999999999999999999999999999999999999999999999999999999999999999999999999999999999999999999999999999999999999999999999999999999))))))
 (.node 16 (.node 8 (.node 4 (.node 2 (.node 1 (.leaf 9999999999999999999999999999999999999999999999999999999999999999999999999999999999999999999999999999999999999999999999991114999999999999999999999999999999999999999999999999999999999999999999999999999999999999111599999999999999999999999999999999999999999999)
 (.leaf 9999999999999999999999999999999999999999999999999999999999999999999999999999999999999999999999999999999999999999999999999999999999991116999999999999999999999999999999999999999999999999999999999999999999999999999999999999999999999999999999999999999999999999))
 (.node 1 (.leaf 9999999999999999999999999999999999999999999999999999999999999999999999999999999999999999999999999999999999999999999999999999999999999999999999999999999999999999999999999999999999999999999999999999999999999999999999999999999999999999999999999999999999999999)
 (.leaf 9999999911179999999999999999999999999999999999999999999999999999999999999999999999999999999999999999999999999999999999999999999999999999999999999999999999999999999999999999999999999999999999999999999911189999999999999999999999999999999999999999999999999999)))
 (.node 2 (.node 1 (.leaf 9999999999999999999999999999999999999999999999999999999999999999999999999999999999999999999999999999999999999999999911199999999999991120999999999999999999999999999999999999999999999999999999991121999999999999999999999999999911229999112399999999999999999999)
 (.leaf 9999999999999999999999999999999999999999999999999999999999999999999999991124999999999999999999999999999999999999999999999999999911259999999999999999999999999999999999999999999999999999999999999999999999999999999999999999999999999999999999999999999999999999))
 (.node 1 (.leaf 9999999999999999999999999999999999999999999999999999999999999999999999999999999999999999999911269999999999999999999999999999999999999999999999999999999999999999999999999999999999999999999999999999999999999999999999999999999999999999999999999999999999999999)
 (.leaf 9999999999999999999999999999999999999999999999999999999999999999999999999999999999999999999999999999999999999999999999999999999999999999999999999999999999999999999999999999999999999999999999999999999999999999999999999999999999999999999911279999999999999999))))
 (.node 4 (.node 2 (.node 1 (.leaf 9999999999999999999999999999112899999999999999999999999999999999999999999999999999999999999999999999999999999999999999999999999999999999999999999999999999999999999999999999999999999999999999999999999999999999112911309999999999999999999999999999999999999999)
 (.leaf 9999999999991131113299991133999999999999999999999999999999999999999999999999999999999999999999999999999999999999999999999999999999999999999911349999999999999999999999999999999999999999999999999999999911359999999999999999999999999999999999999999999999999999))
 (.node 1 (.leaf 9999999999999999999999999999999999999999999999999999999999999999999999999999999999999999999999999999999999999999999999999999999999999999999999999999999999999999999999999999999999999999999999999999999999999999999999999999999999999999999999999999999999999999)
 (.leaf 9999999999999999999999999999999999999999999999999999999999999999999999999999999999999999999999999999999999999999999999999999999999999999999999999999999999999999999999999999999999999999999999999999999999999999999999999999999999991136999999999999999999999999)))
 (.node 2 (.node 1 (.leaf 9999999911379999999999999999999999999999999999999999999999999999999999999999999999999999999999999999999911389999999999999999999999999999999999991139999999999999999999999999999999999999999999991140999999999999999999999999999999999999999999999999999999999999)
 (.leaf 9999999999999999999999999999999999999999999999999999114199999999999999999999999999999999999999999999999999999999999999999999999999999999999999999999999999999999999999999999999999999999999999999999999999999999999999999999999999999999999999999999999999999999))
 (.node 1 (.leaf 9999999999999999999911429999999999999999999999999999999999999999999999999999999999999999999999999999999999999999999999999999999999999999999999999999999999999999999999999999999999999999999999999999999999999999999999999999999999999999999999999999999999999999)
 (.leaf 9999999999999999999999999999999999999999999999999999999999999999999999999999999999999999999999999999999999999999999999999999999999999999999911439999999999999999999999999999999999999999999999999999999999999999999911449999999911459999999999999999999999999999)))))
 (.node 8 (.node 4 (.node 2 (.node 1 (.leaf 9999999999999999999999999999999999991146999999999999999999999999999999999999999999999999999999999999999999999999999999999999114799999999999999999999114899999999999999999999999999999999999999999999114999999999999999999999999999999999999999999999999999999999)
 (.leaf 9999999999999999999999999999999999999999999999999999999999999999999999991150999999999999999999999999999999999999999999999999999999999999999999999999999999999999999999999999999999999999999999999999999999999999999999999999999999999999999999999999999999999999))
 (.node 1 (.leaf 9999999999999999999999999999999999999999999999999999999999999999999999999999999999999999999999999999999999999999999999999999999999999999999999999999999999999999999999999999999999999999999999991151999999999999999999991152999999999999999911539999999999999999)
 (.leaf 9999999999999999999999999999999999999999999999999999115499999999999999999999999999999999115599999999999999999999999911569999999999999999999999999999999999999999999999999999999999999999999999999999999999999999999999999999999999999999999911579999999999999999)))
 (.node 2 (.node 1 (.leaf 9999999999999999999999999999999999999999999999999999999999999999999999999999999999999999999999999999999999999999999999999999999999999999999999999999999999991158999999999999999999999999999999999999999999999999999999999999999999999999999999999999999999999999)
 (.leaf 9999999999999999999999999999999999999999999999999999999911599999999999999999999999999999999999999999116099999999999999999999999999999999999999999999999999999999999999999999999999999999116199991162116399999999999999999999999999999999999999999999999999999999))
 (.node 1 (.leaf 9999999999999999999999999999999999999999999999999999999999999999999999999999999999999999999999999999999999999999999999999999999999999999999999999999999999999999999999999999999999999999999999999999999999999999999999999999999999999999999999999999999999999999)
 (.leaf 9999999999999999999999999999999999999999999999999999999999999999999999999999999999999999999999999999999999999999999999999999999999999999999999999999999999999999116499999999999999999999999999999999999999999999999999999999999999999999116599999999999999999999))))
 (.node 4 (.node 2 (.node 1 (.leaf 9999999999999999999999991166999999999999999999999999999999999999999999991167999999999999999999999999999999991168999999999999999999999999999999999999999999999999999999999999999999999999999999999999999999999999999999999999999999999999999999999999999999999999)
 (.leaf 9999999999999999999999999999999999999999999999999999999999999999999999999999999999999999999999999999999999999999999999999999999999999999999999999999999999999999999911699999999999999999999999999999999999999999999911709999999999999999999911711172999999999999))
 (.node 1 (.leaf 9999999999999999999999999999999999999999117311749999999911759999999999999999999999999999999999999999999999991176999999999999999999999999999999999999999999999999999999999999999999999999999999999999999999999999999999999999999999999999999999991177999999999999)
 (.leaf 9999999999991178999999999999999999999999999999999999999999999999999999999999999999999999999999999999999999999999999999999999117999999999999999999999999999999999999999999999999999999999999999999999999999999999999999999999999999991180999999999999999999999999)))
 (.node 2 (.node 1 (.leaf 9999999999999999999999999999999999999999999999999999118199999999999999999999999999999999999999999999999911829999999999999999999999999999999999999999999999999999999999999999999999999999999999999999999999999999999999999999999999999999999999999999999999999999)
 (.leaf 9999999999999999999999999999999999999999999999999999999999999999999999999999999999999999999999999999999999999999999999999999999999999999999999999999999999999999999999999999999999999999999999999999999999999999999999999999999999999999999999999999999999999999))
 (.node 1 (.leaf 9999999999999999999999999999999999999999999999999999999999999999999999999999999999999999999999999999999999999999999999999999999999999999999999999999999999999999999999999999118399999999999999999999999999999999999999999999999999999999999999999999999999999999)
 (.leaf 9999999999999999999999999999999999999999999999999999999999999999999999999999999999999999999999999999999911849999999999999999999999999999999999999999999999991185118699999999999999999999999999999999999999991187999999999999999999999999999999991188999999999999)))))))))))
 (.node 16 (.node 8 (.node 4 (.node 2 (.node 1 (.leaf 9999999999999999999999999999999999999999999999999999999999999999999999999999999999999999999999999999999999999999999999999999999999999999999999999999999999999999999999999999999999999999999999999999118999999999999911909999999999999999999999991191999999999999)
 (.leaf 9999999999999999999999999999999911929999999999999999999999999999999999999999999999999999119399999999999999999999999999999999999999999999999999999999999999999999999999999999999999999999999999999999999999999999999999999999999999999999999999999999999999999999))
 (.node 1 (.leaf 9999999999999999999999999999999999999999999999999999999999999999999999999999999999999999999911949999999999991195999999999999999999999999119699999999999911979999999999999999999999999999999999999999999999999999999999999999999999999999999999999999999999999999)
 (.leaf 9999999999999999999999999999999999999999999999999999999999999999999999999999999999999999999999999999999999999999999999999999999999999999119899999999999999999999999999999999999999999999119999999999999999999999999999999999120012019999120299991203999999999999)))
 (.node 2 (.node 1 (.leaf 9999999999999999999999999999999999999999999999999999999999999999999999999999120499999999999999999999999999999999999999999999999999999999999999999999999999999999999999999999999999999999999999999999999999999999120599999999999999999999999999999999999999999999)
 (.leaf 9999999999999999999999999999120699999999999999999999999999999999999999999999999999999999999999999999999999999999999999999999999999999999999999999999120799999999999999999999999999999999999999999999999999999999999999999999999999999999999999999999999999999999))
 (.node 1 (.leaf 9999999999999999999999999999120899999999999999999999999999991209999999999999999912109999999999999999999999999999999999999999999999999999999999999999999912111212999999991213999999999999999999999999999999999999999999999999999999999999999999999999999999999999)
 (.leaf 9999999999999999999912149999121599991216999999999999999999999999999999999999999999999999999999999999121799999999999999999999999999999999999999999999999999999999999999999999999999999999999999999999999999999999999999999999999999999999999999999999999999999999))))
 (.node 4 (.node 2 (.node 1 (.leaf 9999999999999999999999999999999999999999999999999999999912189999999999999999999999999999999999999999999999999999999999999999999999999999999999999999999999999999999999999999999999991219999999999999999999999999999999999999999999999999999999999999999999999999)
 (.leaf 9999999999999999999999999999999999999999999999999999999999999999999999999999999999999999999999991220999999999999999999999999999999999999999999999999999999999999999999999999999999999999999999999999999999999999999999999999999999999999999999999999999999999999))
 (.node 1 (.leaf 9999999999999999999999999999122199999999999999999999999912229999999999999999122312249999999999999999999999999999999999991225999999999999999999999999999999999999999999999999999999999999999999999999999999999999999999999999122699991227999999999999999999999999)
 (.leaf 9999999999999999999999999999999999999999999999999999999999999999999999999999999999999999999999999999999999999999999999999999999999999999999999999999999999999999999999999999999999999999999999999999999999999999999999999999999999999999999999999999999999999999)))
 (.node 2 (.node 1 (.leaf 9999999999999999999999999999999999999999999999999999122899999999122999999999999999999999999999999999999999999999999999999999999999999999999999999999999999999999999999999999123099999999999999999999999999999999999999999999999999999999999999999999123112329999)
 (.leaf 9999999999999999999999999999999999999999999999999999999999999999999999999999999999999999999912339999999999999999999999999999999999991234999999999999999999999999999999999999123599999999999999999999999999999999999999999999999999999999999912369999999999999999))
 (.node 1 (.leaf 9999999999999999999999999999999999999999999999999999999999999999999999999999999999999999999999999999999999999999999999999999999999999999999999991237999999999999999999999999999999999999999999999999999999999999999999999999999999999999999999999999999999999999)
 (.leaf 9999999999999999999999999999123899999999999999999999999999999999999999999999999999999999999999999999999999999999999999999999999999999999999999991239999999999999999999999999999999999999999999999999999999999999999999999999999999999999999999999999999999999999)))))
 (.node 8 (.node 4 (.node 2 (.node 1 (.leaf 9999999999999999999999999999999999999999999999999999999999999999999999999999999999999999999999999999999999999999999999999999999999999999999999999999999999999999999999991240999912419999999999999999999999999999999999999999999999999999999999999999999999999999)
 (.leaf 9999999999999999999999999999999912429999999999999999999999999999999999999999999999999999999999999999999999999999999912439999999999999999999912449999999999991245999999999999999999999999999999999999999999999999999999999999999999999999999999999999999912469999))
 (.node 1 (.leaf 9999999999999999999999999999999999999999999999999999999999999999999999999999999912471248999912499999999999999999999999999999999999999999999999999999999999999999999999999999999999999999999999999999999999991250999999999999999999999999999999999999999999999999)
 (.leaf 9999999999999999999999999999125199999999999999999999999999999999999999999999125299999999999999999999999999999999999999999999999999999999999999999999999999999999999999999999125399999999999999999999999999999999999999999999999999991254999999999999999999999999)))
 (.node 2 (.node 1 (.leaf 9999999999999999999999999999999999999999999999999999999999999999125599999999999999999999999999999999999912569999999999999999999999999999999999999999999999999999999999999999999999991257999999999999999999999999999999999999999999999999999999999999999999999999)
 (.leaf 9999999999999999999999999999999999999999999999999999999999999999999999999999999999999999999999999999999999999999999999999999999999999999999999999999999999999999999999999999999999999999999999999999999999999999999999999999999999991258999999999999999999999999))
 (.node 1 (.leaf 9999999999999999999999999999999999999999999999999999999999999999999999999999999999999999999999999999999999999999999999999999999999999999999999999999999999999999999999999999999999999999999999999999999999999999125999999999999999999999999999999999999999999999)
 (.leaf 9999999999999999999999999999999999991260999999999999999999999999999999999999999999999999999999999999999912619999999999999999999999999999999999999999999999999999999999999999999999999999999999999999999999999999999999999999999999999999999999999999999999999999))))
 (.node 4 (.node 2 (.node 1 (.leaf 9999999999999999999999999999999912629999126399999999999999999999999999999999999999999999999999999999999999999999999999999999999999999999999999991264999999999999999999999999999999999999999999999999999999999999999999999999999999999999999999999999999999999999)
 (.leaf 9999999999999999999999999999999999999999999999991265999999999999999999999999999999999999999999999999999999999999999999999999999999999999999999999999999999999999999999999999999999999999999999999999999999999999999999999999999999999999999999999999999999999999))
 (.node 1 (.leaf 9999999999999999999999999999999999999999999999999999999999999999999999999999999999999999999999999999999999999999999999999999999999999999999999999999999999999999999999999999999999999999999999999999999999999999999999999999999999999999999999999999999999999999)
 (.leaf 9999999999999999999999999999999999999999999999999999999999999999999999999999999999999999999999999999999999999999999999999999999999999999999999999999999999999999999999999999999999999999999999999999999999999999999999999999999999999999126699999999999999999999)))
 (.node 1 (.leaf 9999999999999999999999999999999999999999999999999999999999999999999999999999999999999999999999999999999999999999999999999999999999999999999999999999999999999999999999999999999999999999999999999999999999999999999999999999999999999999999999999999999999999999)
 (.leaf 9999999999999999999999999999999999999999999999999999999999999999999999999999999999999999999999999999999999999999999999999999999999999999999999999999999999999999999999999999999999999999999999999999999999999999999999999999999999999999999999999999999999999999))))))

end WG
