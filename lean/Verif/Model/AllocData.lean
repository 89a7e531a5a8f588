import Verif.Model.DataTree

/-! Generated by `tools/gen_alloc.py`. -/

namespace WG

set_option maxRecDepth 100000

/-- For every row of the routing order the place of its coefficients in `allocTable` (3 digits); 64 rows to a leaf, the first row in
the leading digits. -/
def allocData : DTree :=
 (.node 1024 (.node 512 (.node 256 (.node 128 (.node 64 (.node 32 (.node 16 (.node 8 (.node 4 (.node 2 (.node 1 (.leaf 0)
 (.leaf 0))
 (.node 1 (.leaf 0)
 (.leaf 0)))
 (.node 2 (.node 1 (.leaf 0)
 (.leaf 0))
 (.node 1 (.leaf 0)
 (.leaf 0))))
 (.node 4 (.node 2 (.node 1 (.leaf 0)
 (.leaf 0))
 (.node 1 (.leaf 0)
 (.leaf 0)))
 (.node 2 (.node 1 (.leaf 0)
 (.leaf 0))
 (.node 1 (.leaf 0)
 (.leaf 0)))))
 (.node 8 (.node 4 (.node 2 (.node 1 (.leaf 0)
 (.leaf 0))
 (.node 1 (.leaf 0)
 (.leaf 0)))
 (.node 2 (.node 1 (.leaf 0)
 (.leaf 0))
 (.node 1 (.leaf 0)
 (.leaf 0))))
 (.node 4 (.node 2 (.node 1 (.leaf 0)
 (.leaf 0))
 (.node 1 (.leaf 0)
 (.leaf 0)))
 (.node 2 (.node 1 (.leaf 0)
 (.leaf 0))
 (.node 1 (.leaf 0)
 (.leaf 0))))))
 (.node 16 (.node 8 (.node 4 (.node 2 (.node 1 (.leaf 0)
 (.leaf 0))
 (.node 1 (.leaf 0)
 (.leaf 0)))
 (.node 2 (.node 1 (.leaf 0)
 (.leaf 0))
 (.node 1 (.leaf 0)
 (.leaf 0))))
 (.node 4 (.node 2 (.node 1 (.leaf 0)
 (.leaf 0))
 (.node 1 (.leaf 0)
 (.leaf 0)))
 (.node 2 (.node 1 (.leaf 0)
 (.leaf 0))
 (.node 1 (.leaf 0)
 (.leaf 0)))))
 (.node 8 (.node 4 (.node 2 (.node 1 (.leaf 0)
 (.leaf 0))
 (.node 1 (.leaf 0)
 (.leaf 0)))
 (.node 2 (.node 1 (.leaf 0)
 (.leaf 0))
 (.node 1 (.leaf 0)
 (.leaf 0))))
 (.node 4 (.node 2 (.node 1 (.leaf 0)
 (.leaf 0))
 (.node 1 (.leaf 0)
 (.leaf 0)))
 (.node 2 (.node 1 (.leaf 0)
 (.leaf 0))
 (.node 1 (.leaf 0)
 (.leaf 0)))))))
 (.node 32 (.node 16 (.node 8 (.node 4 (.node 2 (.node 1 (.leaf 0)
 (.leaf 0))
 (.node 1 (.leaf 0)
 (.leaf 0)))
 (.node 2 (.node 1 (.leaf 0)
 (.leaf 0))
 (.node 1 (.leaf 0)
 (.leaf 0))))
 (.node 4 (.node 2 (.node 1 (.leaf 0)
 (.leaf 0))
 (.node 1 (.leaf 0)
 (.leaf 0)))
 (.node 2 (.node 1 (.leaf 0)
 (.leaf 0))
 (.node 1 (.leaf 0)
 (.leaf 0)))))
 (.node 8 (.node 4 (.node 2 (.node 1 (.leaf 0)
 (.leaf 0))
 (.node 1 (.leaf 0)
 (.leaf 0)))
 (.node 2 (.node 1 (.leaf 0)
 (.leaf 0))
 (.node 1 (.leaf 0)
 (.leaf 0))))
 (.node 4 (.node 2 (.node 1 (.leaf 0)
 (.leaf 0))
 (.node 1 (.leaf 0)
 (.leaf 0)))
 (.node 2 (.node 1 (.leaf 0)
 (.leaf 0))
 (.node 1 (.leaf 0)
 (.leaf 0))))))
 (.node 16 (.node 8 (.node 4 (.node 2 (.node 1 (.leaf 0)
 (.leaf 0))
 (.node 1 (.leaf 0)
 (.leaf 0)))
 (.node 2 (.node 1 (.leaf 0)
 (.leaf 0))
 (.node 1 (.leaf 0)
 (.leaf 0))))
 (.node 4 (.node 2 (.node 1 (.leaf 0)
 (.leaf 0))
 (.node 1 (.leaf 0)
 (.leaf 220000000000000000000000000000000000000000000000000000000000000000000000000000000000000000000000000000000000000000000000000000000000000000000000000000000)))
 (.node 2 (.node 1 (.leaf 0)
 (.leaf 0))
 (.node 1 (.leaf 0)
 (.leaf 0)))))
 (.node 8 (.node 4 (.node 2 (.node 1 (.leaf 0)
 (.leaf 0))
 (.node 1 (.leaf 0)
 (.leaf 0)))
 (.node 2 (.node 1 (.leaf 0)
 (.leaf 0))
 (.node 1 (.leaf 0)
 (.leaf 0))))
 (.node 4 (.node 2 (.node 1 (.leaf 419274000000000000000000000000000000000000000000000000000000)
 (.leaf 0))
 (.node 1 (.leaf 0)
 (.leaf 0)))
 (.node 2 (.node 1 (.leaf 0)
 (.leaf 0))
 (.node 1 (.leaf 0)
 (.leaf 0))))))))
 (.node 64 (.node 32 (.node 16 (.node 8 (.node 4 (.node 2 (.node 1 (.leaf 0)
 (.leaf 0))
 (.node 1 (.leaf 0)
 (.leaf 0)))
 (.node 2 (.node 1 (.leaf 0)
 (.leaf 0))
 (.node 1 (.leaf 0)
 (.leaf 0))))
 (.node 4 (.node 2 (.node 1 (.leaf 0)
 (.leaf 0))
 (.node 1 (.leaf 0)
 (.leaf 0)))
 (.node 2 (.node 1 (.leaf 0)
 (.leaf 0))
 (.node 1 (.leaf 0)
 (.leaf 0)))))
 (.node 8 (.node 4 (.node 2 (.node 1 (.leaf 0)
 (.leaf 0))
 (.node 1 (.leaf 0)
 (.leaf 0)))
 (.node 2 (.node 1 (.leaf 0)
 (.leaf 0))
 (.node 1 (.leaf 0)
 (.leaf 0))))
 (.node 4 (.node 2 (.node 1 (.leaf 0)
 (.leaf 0))
 (.node 1 (.leaf 0)
 (.leaf 0)))
 (.node 2 (.node 1 (.leaf 0)
 (.leaf 0))
 (.node 1 (.leaf 0)
 (.leaf 0))))))
 (.node 16 (.node 8 (.node 4 (.node 2 (.node 1 (.leaf 0)
 (.leaf 0))
 (.node 1 (.leaf 0)
 (.leaf 0)))
 (.node 2 (.node 1 (.leaf 0)
 (.leaf 0))
 (.node 1 (.leaf 0)
 (.leaf 0))))
 (.node 4 (.node 2 (.node 1 (.leaf 0)
 (.leaf 0))
 (.node 1 (.leaf 0)
 (.leaf 0)))
 (.node 2 (.node 1 (.leaf 0)
 (.leaf 0))
 (.node 1 (.leaf 0)
 (.leaf 0)))))
 (.node 8 (.node 4 (.node 2 (.node 1 (.leaf 0)
 (.leaf 0))
 (.node 1 (.leaf 235000000000000000000000000000000000000000000000000000000000000000000000000000000000000000000000000000000000000000000000000000000000000000000)
 (.leaf 0)))
 (.node 2 (.node 1 (.leaf 0)
 (.leaf 0))
 (.node 1 (.leaf 0)
 (.leaf 0))))
 (.node 4 (.node 2 (.node 1 (.leaf 0)
 (.leaf 0))
 (.node 1 (.leaf 0)
 (.leaf 0)))
 (.node 2 (.node 1 (.leaf 0)
 (.leaf 0))
 (.node 1 (.leaf 0)
 (.leaf 0)))))))
 (.node 32 (.node 16 (.node 8 (.node 4 (.node 2 (.node 1 (.leaf 5000000000000000)
 (.leaf 0))
 (.node 1 (.leaf 0)
 (.leaf 0)))
 (.node 2 (.node 1 (.leaf 0)
 (.leaf 0))
 (.node 1 (.leaf 439000000000000000000000000000000000000000000000000)
 (.leaf 347000000000000000000000000000000000000000000000000000000000000000000000000000000000000000000000000000000000000000000000000000000000000000000000000000000000000000000000000))))
 (.node 4 (.node 2 (.node 1 (.leaf 0)
 (.leaf 0))
 (.node 1 (.leaf 0)
 (.leaf 0)))
 (.node 2 (.node 1 (.leaf 0)
 (.leaf 0))
 (.node 1 (.leaf 0)
 (.leaf 0)))))
 (.node 8 (.node 4 (.node 2 (.node 1 (.leaf 0)
 (.leaf 0))
 (.node 1 (.leaf 78000000000000000000000000000000000000000000000000000000000000000000000000000000000000000000000000000000000000000000000000000000000000000000000000000000000000)
 (.leaf 0)))
 (.node 2 (.node 1 (.leaf 260000000000000000000000000000000000000000000000000000000000000000000000000000000000000000000000000000000000000000000000000000000000000000000000000000000000)
 (.leaf 270000000000000000000000000000000000000000000000000000000000000000000000000000000000000000000000000000000000000000000000000000000000000000000000000000000000000))
 (.node 1 (.leaf 0)
 (.leaf 286000000000000000000000000000000000000000000))))
 (.node 4 (.node 2 (.node 1 (.leaf 0)
 (.leaf 339000000000000))
 (.node 1 (.leaf 455000000000000000000000000000000000000000000000000000000000000000000000000000000000000000000000000000000000000000000437000000000000000000000000000000000000000000000000000000000000000000)
 (.leaf 0)))
 (.node 2 (.node 1 (.leaf 0)
 (.leaf 407000000000000000000000000000000000000000000000000000000000000000000000000000000000000000000000000000000000000000000001000000))
 (.node 1 (.leaf 0)
 (.leaf 0))))))
 (.node 16 (.node 8 (.node 4 (.node 2 (.node 1 (.leaf 225000000000000000000000000000000000000000000000000000000000000000000000000000000000000000000000000000000000000000000000000000400000000000000000000000000000000000000000000000000000000000)
 (.leaf 389000000000000000000000000000000000000000000000000000000000000000000000000000000000000000000000000000000000000000000000000000000000000000000000000000000000000000))
 (.node 1 (.leaf 243000000000000000000000000000000000000000000000000000000000000000000000000000000000000000000000000000000)
 (.leaf 218000000000000000000000000000000000000000000000000000000000000000000000000000)))
 (.node 2 (.node 1 (.leaf 0)
 (.leaf 0))
 (.node 1 (.leaf 39000000000000000000000000000000000000000000000000000000000000000000000000000000000000000000000000000000000000000000000000000000000000000000000000)
 (.leaf 0))))
 (.node 4 (.node 2 (.node 1 (.leaf 355000000000000000000000000000000000000000000000000000000000000000000000000000000000000000000000079000000000000000000000000000000000000000000000000000000000000000000000000000000)
 (.leaf 0))
 (.node 1 (.leaf 0)
 (.leaf 0)))
 (.node 2 (.node 1 (.leaf 402000000)
 (.leaf 334000000000000000000000000000000000000000000000000000000000000000000000000000000000000000000000000000000000000000000000000000000000))
 (.node 1 (.leaf 258000000000000000000000000000000000000000000000000000000000000000000000000000000000000000000000000000000000000000000000000000000000000)
 (.leaf 111118000000000000000000000000000000000000000000000000000000000000000000000000000000000000000000000000000000022000000000000000000000)))))
 (.node 8 (.node 4 (.node 2 (.node 1 (.leaf 338000000000000000000000000000000000000000000000000000000000000000000000000000000000000000000000000000000000000000000000000000000000000)
 (.leaf 222000018000000))
 (.node 1 (.leaf 0)
 (.leaf 0)))
 (.node 2 (.node 1 (.leaf 0)
 (.leaf 0))
 (.node 1 (.leaf 217000000000000000000000000000000000000000000000000000251000000000000000)
 (.leaf 23053000288000000000000000000000000000000000000000000000000000000000000000000000000000000000000000000000000000000000000000000000000000081000000000000000000))))
 (.node 4 (.node 2 (.node 1 (.leaf 252000000000000000000000000000000000000000000)
 (.leaf 33000000000000000000000000000000000000000000000000000000000000000))
 (.node 1 (.leaf 0)
 (.leaf 17000000000000000000000000000000000000000000000000000000000000000000000000000000000000000000394000000000000000000000000000000000000000000000000000000000000)))
 (.node 2 (.node 1 (.leaf 0)
 (.leaf 0))
 (.node 1 (.leaf 26000000000000047000000000000000000000000000000000000000000000000000000000000000000000000000000000000000000000000000000000000000000000000000000000000)
 (.leaf 0)))))))))
 (.node 128 (.node 64 (.node 32 (.node 16 (.node 8 (.node 4 (.node 2 (.node 1 (.leaf 36000000000000000)
 (.leaf 0))
 (.node 1 (.leaf 0)
 (.leaf 327000000000000020000000000000000000000000000000000000000000000000000000000000000000000000000000000000000000000000)))
 (.node 2 (.node 1 (.leaf 0)
 (.leaf 325000000000000000000000000000000000000000000000000000000000000000000000000000000000000000000000000000000000000000000000000000))
 (.node 1 (.leaf 0)
 (.leaf 0))))
 (.node 4 (.node 2 (.node 1 (.leaf 144000000000000000000000000000255116000000000056000000000000000000000000000000000000000000000000000)
 (.leaf 0))
 (.node 1 (.leaf 0)
 (.leaf 248000114000000000000000000000000000000000000000333000000000000000000000000000000000000000000000000000000000000000000000000000000000000000000000000000000000000000000000000000000000000)))
 (.node 2 (.node 1 (.leaf 52000000000000000000000000000000000000000000000000000000000000000000000000000000000000)
 (.leaf 89000000000000000000000000000000000000000000000000000000000000000000000000000000000000000000000000000000000000000000000000000000000000000000000000000000))
 (.node 1 (.leaf 0)
 (.leaf 0)))))
 (.node 8 (.node 4 (.node 2 (.node 1 (.leaf 0)
 (.leaf 322000000000000000000000000000000000000000000000000000000000000000000000000000000000000000000000000082))
 (.node 1 (.leaf 256000000000000000000000000000000000000000000000000000000000000000000000000000000000000000000000000000000000000000000000000000000000000000000000000)
 (.leaf 399000000000000000000000000000000000000000000000000000000000000000000000000000000000000000000331000000)))
 (.node 2 (.node 1 (.leaf 29000000000000000000000000000000000000000000000000000000000000000000000000000000000000000000000000000000000000000000000000000000000000000000000000000000000000000000000000000000000000000000)
 (.leaf 0))
 (.node 1 (.leaf 0)
 (.leaf 80000000000000000000000000000000000000000000000000))))
 (.node 4 (.node 2 (.node 1 (.leaf 38000226000000000000000000000000000000000000000000000000000000000000000000000000000000000000000000000000000000000000000000000000000000000000000000000000000000000000000)
 (.leaf 15000000000000007000002000238000337000000000000000000000000000000))
 (.node 1 (.leaf 43000000000000000000000000000000000000000000000000000000000000000000000000000000000000000000000000000000000000000000000000000000000000000000000000000000)
 (.leaf 129103000)))
 (.node 2 (.node 1 (.leaf 28326000000000000000000000000000000000000000000000000000000000000000000000000000000000000000000000000000000)
 (.leaf 0))
 (.node 1 (.leaf 12000000000000000350344000000000000000000000000000000000000000000000000000000000000000000000000000000000000000000000000000000000000000000000000000000000000000000000000000000000)
 (.leaf 0))))))
 (.node 16 (.node 8 (.node 4 (.node 2 (.node 1 (.leaf 234000000000000000000000000088000000000000000000000000000000000000000000000000000000000000000000000000000000000000000000000000000000000000)
 (.leaf 0))
 (.node 1 (.leaf 9000004000000000000000000000000000000000000000000000000000000000000000000000000000000000000000000000000000000000000000000000000000000000000000000)
 (.leaf 0)))
 (.node 2 (.node 1 (.leaf 438000000000000000000000000000000000000000000000000000000000000000000000000000000000000000000000000)
 (.leaf 0))
 (.node 1 (.leaf 0)
 (.leaf 0))))
 (.node 4 (.node 2 (.node 1 (.leaf 0)
 (.leaf 245000216000000000000358107000000000000000000000000000000000000000000000000000000000000000000000000000000000000000000000000000000000000000000000000000000000000000000000000000000000000))
 (.node 1 (.leaf 418)
 (.leaf 0)))
 (.node 2 (.node 1 (.leaf 0)
 (.leaf 0))
 (.node 1 (.leaf 239000000330000000000000000000000000000000000000000000000)
 (.leaf 0)))))
 (.node 8 (.node 4 (.node 2 (.node 1 (.leaf 323000000000000000000000000000000000000000000000000000000000000000000000000000000000000)
 (.leaf 0))
 (.node 1 (.leaf 0)
 (.leaf 0)))
 (.node 2 (.node 1 (.leaf 321000000000000000000000000000000000000000000000000000000000000000000000000000000000000)
 (.leaf 0))
 (.node 1 (.leaf 446000000000000000000000000000000000027000000000000000000000062000000000000000000000000000000000000000000000000000000000000000000000000000000000000000000000000000)
 (.leaf 0))))
 (.node 4 (.node 2 (.node 1 (.leaf 0)
 (.leaf 0))
 (.node 1 (.leaf 397000000000000000000000000000000057000242000000000000000000000000000000000000000000000000000000000000000000000000000000000000000)
 (.leaf 0)))
 (.node 2 (.node 1 (.leaf 0)
 (.leaf 0))
 (.node 1 (.leaf 404000000000000000000000000000000000000000000000000000000000000000000061000000280000000000000000000000000000000000000000000000000000000)
 (.leaf 120000000000000000000000000000000000000000000000000000000000000000000000000000000000000000000000000000000000000000000000000000000000000000000000000000000000000000000000000000000000000000000000)))))))
 (.node 32 (.node 16 (.node 8 (.node 4 (.node 2 (.node 1 (.leaf 113000000)
 (.leaf 0))
 (.node 1 (.leaf 227000000000000000000000000000000)
 (.leaf 0)))
 (.node 2 (.node 1 (.leaf 108000000000000000000000000000000000000000000000000000000000000000000000000000000000000000000000)
 (.leaf 0))
 (.node 1 (.leaf 452000000000000000000000000000000000000000000000000000000000000000000000000000000000000000000000000000)
 (.leaf 0))))
 (.node 4 (.node 2 (.node 1 (.leaf 90000000000000000000000000000000000000000000000000000000000000000000000000000000000000000000000000000000000000000000000000000000000000000)
 (.leaf 0))
 (.node 1 (.leaf 0)
 (.leaf 0)))
 (.node 2 (.node 1 (.leaf 0)
 (.leaf 349000000000000000000000000000060000000000000000000000000000000000000000000000000000000000000000000000000000000000000))
 (.node 1 (.leaf 0)
 (.leaf 0)))))
 (.node 8 (.node 4 (.node 2 (.node 1 (.leaf 21125000000000000000000000000000000000000000000000)
 (.leaf 0))
 (.node 1 (.leaf 40000000000000000000000000000000000000000000000000000000000000000000000000000000000000000000000000000000000000000000000000)
 (.leaf 0)))
 (.node 2 (.node 1 (.leaf 0)
 (.leaf 10000000000000000000272000000000000000000000000000000000000000000000000000000000000000000000000000000000000000000000000000000000000000000))
 (.node 1 (.leaf 0)
 (.leaf 0))))
 (.node 4 (.node 2 (.node 1 (.leaf 257000000000000000000179000000000000000000124000000000000000000000000000000000000000000000000000000000000000000000000000000000000000000000)
 (.leaf 0))
 (.node 1 (.leaf 0)
 (.leaf 101000000000000000000000000000000000000000000000000000000000000000000000000000000000000000000000000000000000000000000000000000000000000000000000000000000000000000000000000000000000000)))
 (.node 2 (.node 1 (.leaf 285000000000000000000000000000000000000000000000000000000000000000000000000000000000000000000000000000000000000000000000000000000000000000)
 (.leaf 0))
 (.node 1 (.leaf 0)
 (.leaf 237000000000000000000000000000000000000000000000000000000000000000000000000000000000000000000000000000000000000000000000000000000000065000000000000000000000000000000000000000000))))))
 (.node 16 (.node 8 (.node 4 (.node 2 (.node 1 (.leaf 68000000000000000000000000000000000000000000000000000000000000000000000000000000000000000000000000000000000000000000000000000000)
 (.leaf 230000000000000000000000000000000000000000000000000))
 (.node 1 (.leaf 0)
 (.leaf 0)))
 (.node 2 (.node 1 (.leaf 13000000000000000000000000000000000000000000000000000000)
 (.leaf 401000000000000000000000000000000000000000000000000000000000000000000000000000000000000000000000000000000000000000000000000))
 (.node 1 (.leaf 356000000000000000)
 (.leaf 241000000000000000000000000000000000000000000))))
 (.node 4 (.node 2 (.node 1 (.leaf 0)
 (.leaf 417351000000000000000000000000000000))
 (.node 1 (.leaf 0)
 (.leaf 0)))
 (.node 2 (.node 1 (.leaf 0)
 (.leaf 0))
 (.node 1 (.leaf 41000)
 (.leaf 354000000000000000000000000000000000000000000000000000000000000000000000000000000000000000000000000000000000000000)))))
 (.node 8 (.node 4 (.node 2 (.node 1 (.leaf 281000000000000000000000000000000000000000000000000000000000000)
 (.leaf 55000000000000000000000000000000000000000000000000000000000000000000000000000000000000000000000000000000000))
 (.node 1 (.leaf 0)
 (.leaf 0)))
 (.node 2 (.node 1 (.leaf 0)
 (.leaf 0))
 (.node 1 (.leaf 0)
 (.leaf 0))))
 (.node 4 (.node 2 (.node 1 (.leaf 0)
 (.leaf 0))
 (.node 1 (.leaf 0)
 (.leaf 0)))
 (.node 2 (.node 1 (.leaf 0)
 (.leaf 0))
 (.node 1 (.leaf 0)
 (.leaf 0))))))))
 (.node 64 (.node 32 (.node 16 (.node 8 (.node 4 (.node 2 (.node 1 (.leaf 0)
 (.leaf 0))
 (.node 1 (.leaf 0)
 (.leaf 0)))
 (.node 2 (.node 1 (.leaf 0)
 (.leaf 0))
 (.node 1 (.leaf 0)
 (.leaf 0))))
 (.node 4 (.node 2 (.node 1 (.leaf 0)
 (.leaf 0))
 (.node 1 (.leaf 0)
 (.leaf 0)))
 (.node 2 (.node 1 (.leaf 0)
 (.leaf 0))
 (.node 1 (.leaf 0)
 (.leaf 0)))))
 (.node 8 (.node 4 (.node 2 (.node 1 (.leaf 0)
 (.leaf 0))
 (.node 1 (.leaf 0)
 (.leaf 0)))
 (.node 2 (.node 1 (.leaf 0)
 (.leaf 0))
 (.node 1 (.leaf 0)
 (.leaf 0))))
 (.node 4 (.node 2 (.node 1 (.leaf 0)
 (.leaf 0))
 (.node 1 (.leaf 0)
 (.leaf 0)))
 (.node 2 (.node 1 (.leaf 0)
 (.leaf 0))
 (.node 1 (.leaf 0)
 (.leaf 0))))))
 (.node 16 (.node 8 (.node 4 (.node 2 (.node 1 (.leaf 0)
 (.leaf 0))
 (.node 1 (.leaf 0)
 (.leaf 0)))
 (.node 2 (.node 1 (.leaf 0)
 (.leaf 0))
 (.node 1 (.leaf 0)
 (.leaf 233000000000000000000000000000000000000000000000000000000000000000000000000000000000000000000000000000000000000000000000000000000000000000000000))))
 (.node 4 (.node 2 (.node 1 (.leaf 0)
 (.leaf 0))
 (.node 1 (.leaf 0)
 (.leaf 0)))
 (.node 2 (.node 1 (.leaf 0)
 (.leaf 0))
 (.node 1 (.leaf 0)
 (.leaf 0)))))
 (.node 8 (.node 4 (.node 2 (.node 1 (.leaf 0)
 (.leaf 329))
 (.node 1 (.leaf 0)
 (.leaf 0)))
 (.node 2 (.node 1 (.leaf 0)
 (.leaf 0))
 (.node 1 (.leaf 440000000000000000000000000000000000000000000000000000000000000000000000)
 (.leaf 0))))
 (.node 4 (.node 2 (.node 1 (.leaf 0)
 (.leaf 0))
 (.node 1 (.leaf 100127000000000000000000000000000)
 (.leaf 0)))
 (.node 2 (.node 1 (.leaf 0)
 (.leaf 6000000000000000000000000000000000000000000000000000000000000000000000000000000000000000))
 (.node 1 (.leaf 0)
 (.leaf 0)))))))
 (.node 32 (.node 16 (.node 8 (.node 4 (.node 2 (.node 1 (.leaf 0)
 (.leaf 0))
 (.node 1 (.leaf 0)
 (.leaf 0)))
 (.node 2 (.node 1 (.leaf 0)
 (.leaf 0))
 (.node 1 (.leaf 0)
 (.leaf 359000000000000000000000000000000000000000000000000000000000000000000000000000000000000000000000000000000))))
 (.node 4 (.node 2 (.node 1 (.leaf 273000000000000000000000000000000000000000000000000000000000000000000000000000000000000000000000000000000000000000000000000000)
 (.leaf 0))
 (.node 1 (.leaf 0)
 (.leaf 0)))
 (.node 2 (.node 1 (.leaf 0)
 (.leaf 0))
 (.node 1 (.leaf 0)
 (.leaf 0)))))
 (.node 8 (.node 4 (.node 2 (.node 1 (.leaf 0)
 (.leaf 0))
 (.node 1 (.leaf 0)
 (.leaf 46000000000000000000000000000000000000000000000000000000000000000000000000000000000000000)))
 (.node 2 (.node 1 (.leaf 0)
 (.leaf 0))
 (.node 1 (.leaf 0)
 (.leaf 0))))
 (.node 4 (.node 2 (.node 1 (.leaf 171050000000000000000000000000000000000000000000000000000000000000000000000000000000000000)
 (.leaf 169051000000000000000000000000000000000000000000000000000000000000000000000000000000000000))
 (.node 1 (.leaf 0)
 (.leaf 0)))
 (.node 2 (.node 1 (.leaf 0)
 (.leaf 0))
 (.node 1 (.leaf 0)
 (.leaf 0))))))
 (.node 16 (.node 8 (.node 4 (.node 2 (.node 1 (.leaf 0)
 (.leaf 0))
 (.node 1 (.leaf 0)
 (.leaf 0)))
 (.node 2 (.node 1 (.leaf 0)
 (.leaf 0))
 (.node 1 (.leaf 0)
 (.leaf 0))))
 (.node 4 (.node 2 (.node 1 (.leaf 0)
 (.leaf 0))
 (.node 1 (.leaf 0)
 (.leaf 0)))
 (.node 2 (.node 1 (.leaf 0)
 (.leaf 0))
 (.node 1 (.leaf 0)
 (.leaf 0)))))
 (.node 8 (.node 4 (.node 2 (.node 1 (.leaf 0)
 (.leaf 0))
 (.node 1 (.leaf 0)
 (.leaf 0)))
 (.node 2 (.node 1 (.leaf 0)
 (.leaf 0))
 (.node 1 (.leaf 0)
 (.leaf 0))))
 (.node 4 (.node 2 (.node 1 (.leaf 0)
 (.leaf 0))
 (.node 1 (.leaf 0)
 (.leaf 0)))
 (.node 2 (.node 1 (.leaf 0)
 (.leaf 0))
 (.node 1 (.leaf 0)
 (.leaf 0))))))))))
 (.node 256 (.node 128 (.node 64 (.node 32 (.node 16 (.node 8 (.node 4 (.node 2 (.node 1 (.leaf 0)
 (.leaf 0))
 (.node 1 (.leaf 0)
 (.leaf 0)))
 (.node 2 (.node 1 (.leaf 0)
 (.leaf 0))
 (.node 1 (.leaf 0)
 (.leaf 0))))
 (.node 4 (.node 2 (.node 1 (.leaf 0)
 (.leaf 0))
 (.node 1 (.leaf 0)
 (.leaf 0)))
 (.node 2 (.node 1 (.leaf 0)
 (.leaf 0))
 (.node 1 (.leaf 0)
 (.leaf 0)))))
 (.node 8 (.node 4 (.node 2 (.node 1 (.leaf 0)
 (.leaf 0))
 (.node 1 (.leaf 0)
 (.leaf 3000000000000000000000000000000000000000000000000000000000000000000000000000000000000000000000000000000000000000000000000000000000000000)))
 (.node 2 (.node 1 (.leaf 0)
 (.leaf 0))
 (.node 1 (.leaf 0)
 (.leaf 0))))
 (.node 4 (.node 2 (.node 1 (.leaf 0)
 (.leaf 0))
 (.node 1 (.leaf 0)
 (.leaf 328000000000000000000000336000000000000000000000000000000000000000000000000000000000)))
 (.node 2 (.node 1 (.leaf 0)
 (.leaf 0))
 (.node 1 (.leaf 0)
 (.leaf 0))))))
 (.node 16 (.node 8 (.node 4 (.node 2 (.node 1 (.leaf 0)
 (.leaf 0))
 (.node 1 (.leaf 291000000064000000000000000000000000000000000000000000000000000000000000000000000000000000000000)
 (.leaf 0)))
 (.node 2 (.node 1 (.leaf 390000000000000000000000000000000000000229000000000000000000000)
 (.leaf 16000000000000000000000000000000000000000))
 (.node 1 (.leaf 0)
 (.leaf 147000000000000000000000000000000000000000000000000000000000000000000000000000000000000000000000000000000000000000000000000000000000000000000000000000000000000000000000000))))
 (.node 4 (.node 2 (.node 1 (.leaf 159000000000000000000443000000)
 (.leaf 0))
 (.node 1 (.leaf 0)
 (.leaf 0)))
 (.node 2 (.node 1 (.leaf 223000000000000000000000000000000000000000000000000000000000000000000000000000000000000000000000000000000000000000000000000000000000000000000000000000000000000000000000000000000000000)
 (.leaf 450000000000000000000000000000000000000000000000000000094000000167000000000000000000000000000000000000000000000000000000000000000000000000000000000000000))
 (.node 1 (.leaf 426000000000000000000000000000000000000000000000000000000000)
 (.leaf 112000000000000000000000000000000000000000000000000000000000143000000000000000000000000000000000000000000000000)))))
 (.node 8 (.node 4 (.node 2 (.node 1 (.leaf 343000000000000000000000000000000000000000000000000000000000000000000000000000000000000000000000000000000000000000000000000)
 (.leaf 0))
 (.node 1 (.leaf 158000000000000000000000000000000000000000000000000000000000000000000000000000000000000000000000000000000000000000000000000000000000000000)
 (.leaf 59000000000000000000000000000000000000000000000000000161000000000000000000000000000000293000000000000000000000000000000000000000000000000)))
 (.node 2 (.node 1 (.leaf 228000000000000000000000000000000000000000000000000000000000104000000000000000000000000000000000000000000000000000000000096000000000000000000)
 (.leaf 232000000000000000000000000000000000076000000000000000000000000000000000000000000000000000000000000000000000000000000000000000000000130000000000000000000000000000000000000000000000000000000))
 (.node 1 (.leaf 364000000000000000000000000000000000000000000000000000000000000000000000000000000155000000000000000000000000000000000000000000000000000000000000000000268000000000)
 (.leaf 382000000000000000000000000000000000000000000000253000000000000000000000000000))))
 (.node 4 (.node 2 (.node 1 (.leaf 264000098000000000000000000000000000000000000000000000000000000000000000000000000000000000000000000000000000000000000000000000000000)
 (.leaf 0))
 (.node 1 (.leaf 422000000000000000000000000000000067000416000000000000000000000000000000000000000000000000000000000000000000000000000000000000000000000000)
 (.leaf 58000000000000000000000000000000000000000000000000000000000000000000000000000000000000000000000000000000000000000000000000000000000000000)))
 (.node 2 (.node 1 (.leaf 308000000000000000000000000000000000000000000000000000000000000000000000000000000000000000000000000000000000000000000000000)
 (.leaf 37000000000000000275000000000000000000000000000000000000000000000000000000000000000000000000000000000000024000000000000000000345000086000000000000000))
 (.node 1 (.leaf 145000000000000000000000000000000000000000000000000)
 (.leaf 19000000000000000000000000000000000000000000000000000000000000000000)))))))
 (.node 32 (.node 16 (.node 8 (.node 4 (.node 2 (.node 1 (.leaf 148000000000000000000000000000000000000000000000000000000)
 (.leaf 54000000000000000000000000000000000000000000000000000000000000000000000000000000))
 (.node 1 (.leaf 320000075000000000000000000000000000000000000000000000000000000000000000000000000000000000000000000000000000000000000000000000000000000000000000)
 (.leaf 210000000000000000000000000000000000000000000000000000000000000000000000000000000000000000000000000000000000000000000000000000000000000000000000000000000000000000000000000000)))
 (.node 2 (.node 1 (.leaf 0)
 (.leaf 0))
 (.node 1 (.leaf 368000000000000000000000000000000000000000000000000000000000000000000000000000000)
 (.leaf 25000000000000000000000000000000000000000000000000000000000000000000000000000000000000000))))
 (.node 4 (.node 2 (.node 1 (.leaf 0)
 (.leaf 0))
 (.node 1 (.leaf 283000000000000000000000000000000000000000)
 (.leaf 352000000000000000000000000000000000000000000000000000000000000000000000000000000000000000000000000000000)))
 (.node 2 (.node 1 (.leaf 266000000000000000000000000000000000000000000000000000000000000000000000000000000000000000000000000000000000000000000000000000)
 (.leaf 0))
 (.node 1 (.leaf 163000000000000000000000000000000000000000000)
 (.leaf 0)))))
 (.node 8 (.node 4 (.node 2 (.node 1 (.leaf 0)
 (.leaf 362000000000000000000000000000000000000000000000000000000000000000000000000000000000000000000000000000000000000000000000000000000000000000000000000000000000000000000000000000030000000000000000))
 (.node 1 (.leaf 91000000000000000000000000000000000000000000000000000000000000000000000000000000000000000000000000000000000296000000000000000000000000000000000000000000000000000000000000000000000000000)
 (.leaf 360000000000000000000413000000000000000000000000000000000000000000000000000000000000000000000000000000000000000000000000000000)))
 (.node 2 (.node 1 (.leaf 137000000000000000000000000000000000000000)
 (.leaf 409000000000000000000000000000000000000000000000000000000000000000000000000))
 (.node 1 (.leaf 0)
 (.leaf 414000000000000000000000000000140000000000000000000000000000000000000000000000000000000000000000000000000000000000000000000000000000000000000000000000000000324000000000000000000000000000000))))
 (.node 4 (.node 2 (.node 1 (.leaf 117000000278000000000000000000000000000000000000000000000000000000000000000000000000000000000000000000000000000000000)
 (.leaf 0))
 (.node 1 (.leaf 0)
 (.leaf 77000000000000000000000000000)))
 (.node 2 (.node 1 (.leaf 447000000000000000000000000000000)
 (.leaf 0))
 (.node 1 (.leaf 300000000000000000000000000)
 (.leaf 0))))))
 (.node 16 (.node 8 (.node 4 (.node 2 (.node 1 (.leaf 0)
 (.leaf 367000000000000000000000000000000000000000000000000000000000000000000000000000000000000000000000000000000000000000000000000000000000000000000000000000000000000000000000000))
 (.node 1 (.leaf 0)
 (.leaf 0)))
 (.node 2 (.node 1 (.leaf 0)
 (.leaf 0))
 (.node 1 (.leaf 0)
 (.leaf 0))))
 (.node 4 (.node 2 (.node 1 (.leaf 0)
 (.leaf 0))
 (.node 1 (.leaf 0)
 (.leaf 0)))
 (.node 2 (.node 1 (.leaf 0)
 (.leaf 0))
 (.node 1 (.leaf 0)
 (.leaf 0)))))
 (.node 8 (.node 4 (.node 2 (.node 1 (.leaf 0)
 (.leaf 219000000000000000000000000000000000000000000000000000000000000000000000000000000000000000000000000000000000000000000000000000000000000000000000000000000000000000000))
 (.node 1 (.leaf 0)
 (.leaf 0)))
 (.node 2 (.node 1 (.leaf 0)
 (.leaf 0))
 (.node 1 (.leaf 0)
 (.leaf 0))))
 (.node 4 (.node 2 (.node 1 (.leaf 0)
 (.leaf 0))
 (.node 1 (.leaf 0)
 (.leaf 0)))
 (.node 2 (.node 1 (.leaf 0)
 (.leaf 0))
 (.node 1 (.leaf 0)
 (.leaf 0))))))))
 (.node 64 (.node 32 (.node 16 (.node 8 (.node 4 (.node 2 (.node 1 (.leaf 0)
 (.leaf 8000000000000000000000000))
 (.node 1 (.leaf 0)
 (.leaf 32)))
 (.node 2 (.node 1 (.leaf 0)
 (.leaf 0))
 (.node 1 (.leaf 0)
 (.leaf 0))))
 (.node 4 (.node 2 (.node 1 (.leaf 0)
 (.leaf 0))
 (.node 1 (.leaf 398000000000000000000000000000000000000000000000000000000000000000000000000000000000000000000000000000000000000000000000000000000000000000000000000000000000000000000000000000000000000000)
 (.leaf 0)))
 (.node 2 (.node 1 (.leaf 0)
 (.leaf 0))
 (.node 1 (.leaf 0)
 (.leaf 0)))))
 (.node 8 (.node 4 (.node 2 (.node 1 (.leaf 0)
 (.leaf 0))
 (.node 1 (.leaf 0)
 (.leaf 0)))
 (.node 2 (.node 1 (.leaf 0)
 (.leaf 0))
 (.node 1 (.leaf 0)
 (.leaf 0))))
 (.node 4 (.node 2 (.node 1 (.leaf 0)
 (.leaf 0))
 (.node 1 (.leaf 0)
 (.leaf 0)))
 (.node 2 (.node 1 (.leaf 0)
 (.leaf 0))
 (.node 1 (.leaf 0)
 (.leaf 0))))))
 (.node 16 (.node 8 (.node 4 (.node 2 (.node 1 (.leaf 63000000000000000000000000000000000000000000000000000000000000000000000000000000000000)
 (.leaf 0))
 (.node 1 (.leaf 0)
 (.leaf 0)))
 (.node 2 (.node 1 (.leaf 0)
 (.leaf 0))
 (.node 1 (.leaf 0)
 (.leaf 0))))
 (.node 4 (.node 2 (.node 1 (.leaf 0)
 (.leaf 0))
 (.node 1 (.leaf 0)
 (.leaf 0)))
 (.node 2 (.node 1 (.leaf 0)
 (.leaf 0))
 (.node 1 (.leaf 0)
 (.leaf 0)))))
 (.node 8 (.node 4 (.node 2 (.node 1 (.leaf 0)
 (.leaf 0))
 (.node 1 (.leaf 301000000000000000000000000)
 (.leaf 45)))
 (.node 2 (.node 1 (.leaf 335000000000000000000000000000000000000000000000000000000000000000000000000000)
 (.leaf 392000000000000000000000000000000000000000000000))
 (.node 1 (.leaf 0)
 (.leaf 0))))
 (.node 4 (.node 2 (.node 1 (.leaf 0)
 (.leaf 457000000000000000000000000000000000133376000000000000000000000000000000))
 (.node 1 (.leaf 31000000000000000000000000000000000)
 (.leaf 332000000000000000000000000000000000000000000000000000000000000000000000000000000000000000000000)))
 (.node 2 (.node 1 (.leaf 106000000000000000000000000000000000000000000071000000000000000000000000000000000000000000000000000000000000000000000000000000000000000000000000000000000)
 (.leaf 297000000000000000000000000000000000000000000000000000000000000000000000000000000000000000000000000000000000000000000000000000000000000224000000000000000000000000000000000))
 (.node 1 (.leaf 134000000000000000000000000000000000000000000000000000000000000000000000000000000000000000000000000000000000000000000000000000000000000000000000000000000000000000000000000000000)
 (.leaf 346236000000000000000000000000000000000000000000000000000000000000000000000000000000000000000000000000000000000000000000000000000444000000000000000000000000000000000000000)))))))
 (.node 32 (.node 16 (.node 8 (.node 4 (.node 2 (.node 1 (.leaf 0)
 (.leaf 160000168000000000000000000000000000000000000000000000369000000000000000000000000000000000000000000000000000000000000000000000))
 (.node 1 (.leaf 49000000000000000000000000000000000000000000000000000000000000000000000000000000000000000)
 (.leaf 294000000000180000000000000000000000000000000000000000000000000000000000000000000000000000000000000000000000000)))
 (.node 2 (.node 1 (.leaf 0)
 (.leaf 0))
 (.node 1 (.leaf 0)
 (.leaf 0))))
 (.node 4 (.node 2 (.node 1 (.leaf 0)
 (.leaf 423000000000000000000000000000000000000000000000000000000000000000000000000000000000000000000000000))
 (.node 1 (.leaf 105000000000000000000000000000000000000000)
 (.leaf 123000000408000000000000000000000000000000000000000000000000000000000000000000000000000000000000000000000000000000000000000000000000000000000)))
 (.node 2 (.node 1 (.leaf 172000000000000000000000000000000000000000000000000000000000000000000000000000000000000000000000000000000000000000000000000000000000000000000000000000000000000000000000000000000000000000)
 (.leaf 0))
 (.node 1 (.leaf 246000000000000000000000000000000000000000000000000000000000000000000000000000000221000000000000000000000000000000000000000000000000000000000000000000000000000066000000000000000000000)
 (.leaf 415000000000000000000000000000000000000000000000000000000000000000000000000000084000000000000000000000000000000000000000000000000000000000000000000000000000)))))
 (.node 8 (.node 4 (.node 2 (.node 1 (.leaf 310000000000000000000000000000000000000000000000000000000000000000000000000000000000)
 (.leaf 149000000000000000000000000000000000000000000000000146000000000000000000000000000000000000000000000000000000000000000000000))
 (.node 1 (.leaf 247000000000000000000000000000000000000000000000000000000000000000000000000000000000000000000000000000000000000000000000000000000000000000000000000000)
 (.leaf 157000000000000000000000000000000000000000000000000000000000000000000000000000000000000000000000000000000000000000000000000000000000000000000000000000000000000000000000000000000000000000000)))
 (.node 2 (.node 1 (.leaf 0)
 (.leaf 372000000000000000000000000000000000000000000000000000000000000000000000000000000000000000000000000000000000000000000000000000000))
 (.node 1 (.leaf 287000000000000000000000000000000000000000000000000000000000000000000000000000000000000000000000000000000000000000000000000000)
 (.leaf 0))))
 (.node 4 (.node 2 (.node 1 (.leaf 0)
 (.leaf 0))
 (.node 1 (.leaf 0)
 (.leaf 0)))
 (.node 2 (.node 1 (.leaf 0)
 (.leaf 0))
 (.node 1 (.leaf 453000000000000000000000000000000000000)
 (.leaf 0))))))
 (.node 16 (.node 8 (.node 4 (.node 2 (.node 1 (.leaf 0)
 (.leaf 184000000000000000000000000000000000000000000000000000000000000000000000))
 (.node 1 (.leaf 0)
 (.leaf 0)))
 (.node 2 (.node 1 (.leaf 312000000000000000000000000000000000000000000000000000000000000000000000000000000000000000000000000000000000)
 (.leaf 0))
 (.node 1 (.leaf 0)
 (.leaf 0))))
 (.node 4 (.node 2 (.node 1 (.leaf 138000000000000000000000000000000000000000000000000000000085000000000000000000000000000000000000000000000000000000000)
 (.leaf 0))
 (.node 1 (.leaf 0)
 (.leaf 460000000000000000000000)))
 (.node 2 (.node 1 (.leaf 0)
 (.leaf 0))
 (.node 1 (.leaf 0)
 (.leaf 0)))))
 (.node 8 (.node 4 (.node 2 (.node 1 (.leaf 0)
 (.leaf 0))
 (.node 1 (.leaf 0)
 (.leaf 0)))
 (.node 2 (.node 1 (.leaf 0)
 (.leaf 0))
 (.node 1 (.leaf 0)
 (.leaf 0))))
 (.node 4 (.node 2 (.node 1 (.leaf 0)
 (.leaf 341000000000000000000000000000000000000000000000000000000000000000000000000000000000000000000000000000000000000000000000000000000000000000000000000000000000000000000000000))
 (.node 1 (.leaf 0)
 (.leaf 0)))
 (.node 2 (.node 1 (.leaf 0)
 (.leaf 0))
 (.node 1 (.leaf 0)
 (.leaf 0)))))))))
 (.node 128 (.node 64 (.node 32 (.node 16 (.node 8 (.node 4 (.node 2 (.node 1 (.leaf 0)
 (.leaf 0))
 (.node 1 (.leaf 0)
 (.leaf 0)))
 (.node 2 (.node 1 (.leaf 244000000000000000000000000000000000000000000000000000000000000000000000000000000000000000000000000000000000000000000000000000000000000000000000000000000000000000000000000000000000)
 (.leaf 0))
 (.node 1 (.leaf 0)
 (.leaf 0))))
 (.node 4 (.node 2 (.node 1 (.leaf 0)
 (.leaf 14000000000000000000000378000000000000000000000000))
 (.node 1 (.leaf 0)
 (.leaf 262000000000000000000000000000000000000000000000000000000000000000000000000000000000151072000000000000000000000000000000000000000000000000000000000000000000000000000000000000000000000)))
 (.node 2 (.node 1 (.leaf 348000000000000000000000000000000000000000000000000000000000000000000000000000000000000000000000000000000000000000000000000000000000000000000000000000000000000)
 (.leaf 174000000000000000000000000000000000000000000000000000000))
 (.node 1 (.leaf 395000182000000000000000000000000000000000000000000190000000000000000000000000000000000000000000000000000000000000000000000000000000000000000000000000000000000000000000000000000000000000000)
 (.leaf 44000000000000000000000000000)))))
 (.node 8 (.node 4 (.node 2 (.node 1 (.leaf 187000000000000000000093000000000000000000000000000000000000000000000000000000000000000000000000000000000000000000000000000000000000000000000000)
 (.leaf 254000000000000000000000000000000000000000000000000000000000000000000000000000000000000000000000000000000000000000000000000000000000000000000000000000000000000000000000000000000000000000))
 (.node 1 (.leaf 131000000000000000000000)
 (.leaf 0)))
 (.node 2 (.node 1 (.leaf 0)
 (.leaf 421099000000000000000000000000000000000000000000000000000000000000000000000000000000000000000))
 (.node 1 (.leaf 166000000000000000000000000000000000000000000000000000000000000000000000000000000000000000000000000000000000000000000000000000000000000000000000000000000000000000000000000000000000)
 (.leaf 430000000000000000000000000000000000000000000000))))
 (.node 4 (.node 2 (.node 1 (.leaf 128000000000000000000000000000000000000000000000000000000456000000000000000000000000000000000000000000000)
 (.leaf 0))
 (.node 1 (.leaf 0)
 (.leaf 178000000000000000000000000000000000000000000000000000000000000000000000000000000000000000000000000000000000000000000000000000000000000000000000000000000000000000000000000)))
 (.node 2 (.node 1 (.leaf 0)
 (.leaf 97000000000000000000000000000000000000000000000000000000000000000000000000000000000000000000000000000000000000000000000000000000000000000000000000000000000000000000000000))
 (.node 1 (.leaf 0)
 (.leaf 0))))))
 (.node 16 (.node 8 (.node 4 (.node 2 (.node 1 (.leaf 92000000000000000000000000000000000000000000361000000000000)
 (.leaf 215000000000))
 (.node 1 (.leaf 459000000000000000000000000000000000000000000000000000000000000000000000000000000000000000000000000000000000000)
 (.leaf 0)))
 (.node 2 (.node 1 (.leaf 271000000000000000000000000000070)
 (.leaf 0))
 (.node 1 (.leaf 0)
 (.leaf 0))))
 (.node 4 (.node 2 (.node 1 (.leaf 0)
 (.leaf 0))
 (.node 1 (.leaf 0)
 (.leaf 0)))
 (.node 2 (.node 1 (.leaf 0)
 (.leaf 0))
 (.node 1 (.leaf 0)
 (.leaf 0)))))
 (.node 8 (.node 4 (.node 2 (.node 1 (.leaf 412000000000000000000000000000000000000000000000000000000000000000000000000000000000000000000000000000000)
 (.leaf 0))
 (.node 1 (.leaf 0)
 (.leaf 0)))
 (.node 2 (.node 1 (.leaf 0)
 (.leaf 0))
 (.node 1 (.leaf 0)
 (.leaf 0))))
 (.node 4 (.node 2 (.node 1 (.leaf 391000000000000000000000000000000000000000000000000000000000000000000000000000000000000)
 (.leaf 0))
 (.node 1 (.leaf 0)
 (.leaf 170000000000000)))
 (.node 2 (.node 1 (.leaf 0)
 (.leaf 214000000000000000000000000000000000000000000000000000000000000000000000000000000000000000000000000000000000000000000000000000000000000000000000000000000000000000000000))
 (.node 1 (.leaf 213)
 (.leaf 442000000000000000000000000000000000000000000000000000000000000000000000000000000000000000000000000000000000000000000000000000000000000000000000)))))))
 (.node 32 (.node 16 (.node 8 (.node 4 (.node 2 (.node 1 (.leaf 449000000000000000000000000000000000277000000000000000000000000000000000000000000410000000000000000000000000000000000000000000)
 (.leaf 267000000087000000000000000000000000000000000000000000000420000000000000000000000000000000000000000000000000000000000000000000000000000000000000000000000000000000000000000000000))
 (.node 1 (.leaf 441000000000000000000000000000000000000000000000000000000000000000000000000000000000000000000000000000000000000000000000000000000381000000165000000000000000000000)
 (.leaf 445000000000000000000000000000000000000000000000000000284000000000000000000000000000000000000000000000000000000000000000000000000000)))
 (.node 2 (.node 1 (.leaf 119000000000000000000000000000000000000000000000000000000000000000000000000000000000000000000000000000353000000000000000000000000000000000000000000374000000000000000000000)
 (.leaf 211000000000000000000000000000000000000000000000000000000000000000000000000))
 (.node 1 (.leaf 240000000000000000000000000000000000000000000000000000000000000000000000000000000000000000000000000000000000000000000000000309000000000000000000000000000000000000000000)
 (.leaf 403000000263000000000000000000000000000000000000000000000000000000000000000366000000000000000000000000000000000000000000000000000000000189000034000000000000000))))
 (.node 4 (.node 2 (.node 1 (.leaf 0)
 (.leaf 0))
 (.node 1 (.leaf 109)
 (.leaf 0)))
 (.node 2 (.node 1 (.leaf 115000000000000000000000000000000000000000000000000000000000000000000000000000000000000000000000000000000000000)
 (.leaf 431000000000000000000000000000000000000000000000000000000000000000000000000000000000000000000000000000000000000000000000000000000))
 (.node 1 (.leaf 0)
 (.leaf 0)))))
 (.node 8 (.node 4 (.node 2 (.node 1 (.leaf 0)
 (.leaf 0))
 (.node 1 (.leaf 250000000000000000000000000000000000000000000000000000000000000000000000000000000000000000000000000000000000000000000000000000000000)
 (.leaf 0)))
 (.node 2 (.node 1 (.leaf 0)
 (.leaf 0))
 (.node 1 (.leaf 306000000000000000000000000000000000000000000000000000000000000000000000000000000000000000000000000000000000000000000000000)
 (.leaf 0))))
 (.node 4 (.node 2 (.node 1 (.leaf 0)
 (.leaf 0))
 (.node 1 (.leaf 0)
 (.leaf 0)))
 (.node 2 (.node 1 (.leaf 0)
 (.leaf 162000000000000000000000000000000000000000000000000000000000000000000000000000000000000000000000000000))
 (.node 1 (.leaf 0)
 (.leaf 0))))))
 (.node 16 (.node 8 (.node 4 (.node 2 (.node 1 (.leaf 0)
 (.leaf 0))
 (.node 1 (.leaf 0)
 (.leaf 461000000000000000000000000000000000000000000000000)))
 (.node 2 (.node 1 (.leaf 377000000000000000000000000000000000000000000000000000000000000000000000000000000000000000000000000000000000000000000000261000000000000000000000000000000000000)
 (.leaf 200000000000000000000000000000000))
 (.node 1 (.leaf 0)
 (.leaf 0))))
 (.node 4 (.node 2 (.node 1 (.leaf 405000000000000000000000000276000000000000000000000000000000000000000000000000)
 (.leaf 212000000000000000000000000000000000000000000000000357000000000000000000000000000000000000000000000000000000000000000000000000000000000000000000000000000000011000000000000000000000000000000000))
 (.node 1 (.leaf 383318000)
 (.leaf 0)))
 (.node 2 (.node 1 (.leaf 265)
 (.leaf 298000000000000000000000000000411000000000000000000000000000000000000000000000000000000000000000000000000304000380000000000000000000000000000000000000000000000000000000000000000000000000000000))
 (.node 1 (.leaf 0)
 (.leaf 0)))))
 (.node 8 (.node 4 (.node 2 (.node 1 (.leaf 0)
 (.leaf 0))
 (.node 1 (.leaf 0)
 (.leaf 0)))
 (.node 2 (.node 1 (.leaf 186000000000)
 (.leaf 0))
 (.node 1 (.leaf 0)
 (.leaf 0))))
 (.node 4 (.node 2 (.node 1 (.leaf 0)
 (.leaf 122000000000000000000000000000000000000000000000000000000))
 (.node 1 (.leaf 428000000000000000)
 (.leaf 0)))
 (.node 2 (.node 1 (.leaf 0)
 (.leaf 0))
 (.node 1 (.leaf 0)
 (.leaf 0))))))))
 (.node 64 (.node 32 (.node 16 (.node 8 (.node 4 (.node 2 (.node 1 (.leaf 465000000000000000000000000000000000000000000000000)
 (.leaf 429000000))
 (.node 1 (.leaf 371000000000000000000000000000000000000000000000000000150000000000000000000000000000000000000000464000000000000000000000000000000000000000000000000000000000000000000000000000000)
 (.leaf 194000000000000000000000000000000000000000000000000000000000000000000000000000000000000000000000000000000000000000000000000000305000000000000000000000000000000000000000135000000000000000)))
 (.node 2 (.node 1 (.leaf 0)
 (.leaf 0))
 (.node 1 (.leaf 192000000000000000000000000000000000000000000000000000000000000000000000000000000000000000000000000000000000)
 (.leaf 427000000000000000000000000000000000000000000000000000000000000000000000000000000000000000000000000000000000000000000000000000188000000000000000000))))
 (.node 4 (.node 2 (.node 1 (.leaf 0)
 (.leaf 0))
 (.node 1 (.leaf 0)
 (.leaf 0)))
 (.node 2 (.node 1 (.leaf 0)
 (.leaf 69000000000000000000000000000))
 (.node 1 (.leaf 0)
 (.leaf 0)))))
 (.node 8 (.node 4 (.node 2 (.node 1 (.leaf 0)
 (.leaf 0))
 (.node 1 (.leaf 0)
 (.leaf 0)))
 (.node 2 (.node 1 (.leaf 0)
 (.leaf 315000000000000000000000000000000000164000000000000000000000000000000000000000000000000000000000000000000000000000000000000000000000000307000000000000000000000000))
 (.node 1 (.leaf 379000000000000000000000000000000000000000000000)
 (.leaf 196000000000000154000000000000000000000000000000000000000000000000000000000000000000000000000000000000000000000000000000000425000000000000000000000000000000432000000000110000000000000000000))))
 (.node 4 (.node 2 (.node 1 (.leaf 316000000000000000000)
 (.leaf 48000000000000000000000000000000000000000000000000000000000))
 (.node 1 (.leaf 83000000000000000000000000000396000000000000000000000000000000000000000000000000000000000000000000000000000000000000000000000000000000000000000000000000000000)
 (.leaf 0)))
 (.node 2 (.node 1 (.leaf 0)
 (.leaf 0))
 (.node 1 (.leaf 0)
 (.leaf 0))))))
 (.node 16 (.node 8 (.node 4 (.node 2 (.node 1 (.leaf 0)
 (.leaf 0))
 (.node 1 (.leaf 0)
 (.leaf 0)))
 (.node 2 (.node 1 (.leaf 0)
 (.leaf 0))
 (.node 1 (.leaf 0)
 (.leaf 313000000000000000000000000000000000000000000000000000))))
 (.node 4 (.node 2 (.node 1 (.leaf 282000000000000000000000000000000000000000000000000000000000000000000000000000000000000000000000393000000000000000000000000000000000000000000000000433000000000000000000000000000000000000000)
 (.leaf 199000000000000000000000000000000000000000000000000000000000000))
 (.node 1 (.leaf 289000000000000000000000000314000000000000000000000000000000000000000000000)
 (.leaf 0)))
 (.node 2 (.node 1 (.leaf 0)
 (.leaf 0))
 (.node 1 (.leaf 0)
 (.leaf 231000000000000000000000000000000000000000000000000000000000000000000000000000000000000000000000000)))))
 (.node 8 (.node 4 (.node 2 (.node 1 (.leaf 0)
 (.leaf 0))
 (.node 1 (.leaf 0)
 (.leaf 454000000000000000000000000000000000000000000000000000000000000000000000000000000000000000000000000000000000000000000)))
 (.node 2 (.node 1 (.leaf 0)
 (.leaf 342000000000000000000000000000000000000000000000000000000000000000000000000000000000000000000000000000000000000000000000000000000000000000000000000000000000000000000000))
 (.node 1 (.leaf 139000000000000000000000000000000000000000000000073000000000000463000000000000000000000000000000000000000177000000000000000)
 (.leaf 451000000000000000000000000000000000000000000000000000000000000000000000000000000000000000000000000000000000000000000000000000000000000000000000000000000000000000000000000000000000000000000))))
 (.node 4 (.node 2 (.node 1 (.leaf 373000000000000000000000000000000000000000000000000000000000000000000000000000000000000000000000000000000000000000000000000000000000)
 (.leaf 0))
 (.node 1 (.leaf 195000000000000000000000000000000000000000000000000000000000000000000000000000000000000000000000000000000000000000000000000000000000000000000000000000000000000000000000000000000000000000000)
 (.leaf 126000000000000000000000000000000000000000000000000000000000000000000000000000000000000000000000000000000000000000000000000000000000000000000000000156000)))
 (.node 2 (.node 1 (.leaf 0)
 (.leaf 0))
 (.node 1 (.leaf 0)
 (.leaf 0)))))))
 (.node 32 (.node 16 (.node 8 (.node 4 (.node 2 (.node 1 (.leaf 132000000000000000000000000000000000000000000000000000000000000000000000000000000000000000000)
 (.leaf 365000000000000406000000000000000000000000000000000000000))
 (.node 1 (.leaf 0)
 (.leaf 340000000000000000000000000000000000000000000000000000000000000000000000000000000000000000000000000000000000000000000000000000000000000000000)))
 (.node 2 (.node 1 (.leaf 0)
 (.leaf 202000000000000000000000000000000000035000000000000269000000000000000000))
 (.node 1 (.leaf 0)
 (.leaf 0))))
 (.node 4 (.node 2 (.node 1 (.leaf 458000000000000000000000000000000000000000000)
 (.leaf 0))
 (.node 1 (.leaf 95000000000000000000000000000000000000000000000000000000000000000000000000000000000000000000000000000000000000000000000000)
 (.leaf 363000000000000303000000000000000000000000000000000000000000000375000000000000000000000000000000000000000000000000000000000000000000000000000000000000000000000000)))
 (.node 2 (.node 1 (.leaf 204000000000000000000000000000000000000000000000000000000000000000000000000000000000000000000000136000000000000000000000000000000000000000000000000000000000000)
 (.leaf 0))
 (.node 1 (.leaf 448000000000000000000)
 (.leaf 0)))))
 (.node 8 (.node 4 (.node 2 (.node 1 (.leaf 0)
 (.leaf 0))
 (.node 1 (.leaf 311000000)
 (.leaf 42000000000000000000000000000000000000000000000000000000000000000000000000000000000000208279000000000000000295000000000000000000191000000000000000000000000)))
 (.node 2 (.node 1 (.leaf 0)
 (.leaf 0))
 (.node 1 (.leaf 302000000000000000000000000000000000000000000000000000000000000000000000000000000000000000000000000000000000000000000000000000000000000000000000000000000000000)
 (.leaf 0))))
 (.node 4 (.node 2 (.node 1 (.leaf 0)
 (.leaf 424000000000000000000000000000000000000000000000000000000000000000000000000000000000000000000000000000))
 (.node 1 (.leaf 152000000000000000000000000000000000000000000000000000000000000000000000000000000000000000000000000)
 (.leaf 0)))
 (.node 2 (.node 1 (.leaf 0)
 (.leaf 0))
 (.node 1 (.leaf 0)
 (.leaf 0))))))
 (.node 16 (.node 8 (.node 4 (.node 2 (.node 1 (.leaf 0)
 (.leaf 249000000000000000000000000000000000000000000000000000000000000000000000000000000000000000000))
 (.node 1 (.leaf 0)
 (.leaf 0)))
 (.node 2 (.node 1 (.leaf 181000000000000000000000)
 (.leaf 0))
 (.node 1 (.leaf 0)
 (.leaf 0))))
 (.node 4 (.node 2 (.node 1 (.leaf 193000000000000000000000000000000)
 (.leaf 153000000000000000000000000000000000000000000000000000000000000000000000000000000000000000000000000000000000000000000000000000000000000000000000000000000000000000000000000000))
 (.node 1 (.leaf 0)
 (.leaf 0)))
 (.node 2 (.node 1 (.leaf 0)
 (.leaf 0))
 (.node 1 (.leaf 0)
 (.leaf 386000000000000000000000)))))
 (.node 8 (.node 4 (.node 2 (.node 1 (.leaf 290000000000000000000000000000000000000000000000000000000000000000000000000000000000292000000000000000000000000000000000000000000000000000000000000000000000000000000)
 (.leaf 0))
 (.node 1 (.leaf 370000000000000)
 (.leaf 175000000000000000000000000102000000000000000000000000000000000000000000000000000000000000000000000000000000000000000000000000000000000000000000000000000)))
 (.node 2 (.node 1 (.leaf 0)
 (.leaf 141000000000000000000000000000000000000000000000000000))
 (.node 1 (.leaf 0)
 (.leaf 0))))
 (.node 4 (.node 2 (.node 1 (.leaf 185000000000000000000000000000000000000000000000000000000000000000000000000000000000000000000000000000000000000000000000000000000000000000000000000000000000000000000000000000)
 (.leaf 385000000000))
 (.node 1 (.leaf 259000000000000000000000000000000000000000000000000000000000000000000000000000000000000000000000000000000000000000000000000000000000000000000000000000183000000000)
 (.leaf 462000000000000000000000000000000000000000000000000000000000000000000000000000000000000000000000000000000000000000000000000000000000000000000000000000000000000000000000000000000000000)))
 (.node 2 (.node 1 (.leaf 209000000000000000000000000000000000000000000000000000000000000000000000000000000000000000000000000000000000000000)
 (.leaf 0))
 (.node 1 (.leaf 0)
 (.leaf 74000000000000000000000000000000000000198000000000000000000000000000000000000000000000000000000000000000000000000)))))))))))
 (.node 16 (.node 8 (.node 4 (.node 2 (.node 1 (.leaf 0)
 (.leaf 0))
 (.node 1 (.leaf 142000000000000000000000000000000000000000000000000000000000000000000000000000000000000000)
 (.leaf 434000319000000000000000)))
 (.node 2 (.node 1 (.leaf 299000000000000000000000000000000000000000000000000000000000000000000000000000000000000000000000000000000000000000000000000000000000000)
 (.leaf 0))
 (.node 1 (.leaf 205000000000000000000000000000000000000000000000000000000000000000000000000000000000000000000384000000000206000000000000000000000000000000000000000000000000000000000000000)
 (.leaf 387000000000000000000000000000000000000000000000000000000000000000000000000000000000000000000000000000000000000000000000000000000000000000000000000000000000000000000))))
 (.node 4 (.node 2 (.node 1 (.leaf 317000000000000000000000000000000000000000000000000000000000000000000000000000000000000000000000000000000000000000000000000000000000000000000000000000)
 (.leaf 0))
 (.node 1 (.leaf 173121000000000000000000000000000000000000000000000000000000000000000000000000000000000000000000000000000000000000000000000000000000000)
 (.leaf 0)))
 (.node 2 (.node 1 (.leaf 0)
 (.leaf 388000000000000000000000000000000000000000000000000000000000000000000000000000000000000000000000000000000000435000000000000))
 (.node 1 (.leaf 0)
 (.leaf 0)))))
 (.node 8 (.node 4 (.node 2 (.node 1 (.leaf 0)
 (.leaf 176000000000000000000000000000000000000000000000000000000000000000000000000000000000000000000000000000000000000000000000000000000000000000000000000000000000000000000000))
 (.node 1 (.leaf 207000000000000000000000000000000000000000000000000000000000000000000000000000000000000000436000000000000000000000000000000000000)
 (.leaf 0)))
 (.node 2 (.node 1 (.leaf 0)
 (.leaf 0))
 (.node 1 (.leaf 0)
 (.leaf 203000000000000000000000000000000000000000000000000000000000000000000000000000000000000000000000000000000000000000))))
 (.node 4 (.node 2 (.node 1 (.leaf 201000000000000000000000000000000000000000000000000000000000000000000000000000000000)
 (.leaf 197000000000000000000000000000000000000000000000000000000000000000000000000000000000000000000000000000000000000000000000000000000000000000000000000000000000))
 (.node 1 (.leaf 0)
 (.leaf 0)))
 (.node 1 (.leaf 0)
 (.leaf 0))))))

/-- Five coefficients in millionths (7 digits each), that of the next cell in the leading digits. -/
def allocTable : DTree :=
 (.node 256 (.node 128 (.node 64 (.node 32 (.node 16 (.node 8 (.node 4 (.node 2 (.node 1 (.leaf 10000001000000100000010000001000000)
 (.leaf 22010002195000219510000001000000))
 (.node 1 (.leaf 23540002354042001802605090260509)
 (.leaf 58680005868100000010000001000000)))
 (.node 2 (.node 1 (.leaf 198640149559100000010000001000000)
 (.leaf 202941000000100000010000001000000))
 (.node 1 (.leaf 223480022348002234810000001000000)
 (.leaf 230200023386000140000014870001482))))
 (.node 4 (.node 2 (.node 1 (.leaf 249321000000100000010000001000000)
 (.leaf 273510021931002140600033730019018))
 (.node 1 (.leaf 294500059746100000010000000095113)
 (.leaf 336580033658003365800336580027801)))
 (.node 2 (.node 1 (.leaf 351830035183003518300351831000000)
 (.leaf 360510156591100000010000001000000))
 (.node 1 (.leaf 499420049942004994200499420049942)
 (.leaf 557390055739005573900557390055739)))))
 (.node 8 (.node 4 (.node 2 (.node 1 (.leaf 613680061368006353110000001000000)
 (.leaf 671370027569000724210000001000000))
 (.node 1 (.leaf 710840060475005930610000001000000)
 (.leaf 829030082903008290300829031000000)))
 (.node 2 (.node 1 (.leaf 842710084271100000010000001000000)
 (.leaf 847410162181016218104474960447496))
 (.node 1 (.leaf 981510138561100000010000001000000)
 (.leaf 1080480108048010804810000001000000))))
 (.node 4 (.node 2 (.node 1 (.leaf 1155920115592017327801732781000000)
 (.leaf 1170090112892011289201128920112892))
 (.node 1 (.leaf 1170420117042010484200948960104781)
 (.leaf 1198120119812011981201198120090857)))
 (.node 2 (.node 1 (.leaf 1202570120257017642005173921000000)
 (.leaf 1291280100222010022210000001000000))
 (.node 1 (.leaf 1343600134360013436010000001000000)
 (.leaf 1358030110521011052103725170372517))))))
 (.node 16 (.node 8 (.node 4 (.node 2 (.node 1 (.leaf 1382271000000100000010000001000000)
 (.leaf 1402481000000100000010000001000000))
 (.node 1 (.leaf 1433650144455100000010000001000000)
 (.leaf 1606670160667016066701606670160667)))
 (.node 2 (.node 1 (.leaf 1696850122202100000010000001000000)
 (.leaf 1745260174526017452610000001000000))
 (.node 1 (.leaf 1754210140512007275500558450055845)
 (.leaf 1861670186167062748306274831000000))))
 (.node 4 (.node 2 (.node 1 (.leaf 1877670187767018776701877670176284)
 (.leaf 1904520511225051122502557930338602))
 (.node 1 (.leaf 1915780191578022773902053860289946)
 (.leaf 1990000103039007909000790900116026)))
 (.node 2 (.node 1 (.leaf 2001540183561018356101835610183561)
 (.leaf 2026300202630020263002026301000000))
 (.node 1 (.leaf 2040440204044020404402040441000000)
 (.leaf 2050040205004020500402050041000000)))))
 (.node 8 (.node 4 (.node 2 (.node 1 (.leaf 2055540205554020555402055541000000)
 (.leaf 2096690209669100000010000001000000))
 (.node 1 (.leaf 2118960211896100000010000001000000)
 (.leaf 2136961000000100000010000001000000)))
 (.node 2 (.node 1 (.leaf 2229620009111000911100094100009410)
 (.leaf 2233400423145042314504231451000000))
 (.node 1 (.leaf 2238560223856100000010000001000000)
 (.leaf 2249270182089048877504887750244561))))
 (.node 4 (.node 2 (.node 1 (.leaf 2263010226301022630110000001000000)
 (.leaf 2299090229909100000010000001000000))
 (.node 1 (.leaf 2343071000000100000010000001000000)
 (.leaf 2343830234383100000010000001000000)))
 (.node 2 (.node 1 (.leaf 2414121000000100000010000001000000)
 (.leaf 2416711000000100000010000001000000))
 (.node 1 (.leaf 2544710254471025447102544710254471)
 (.leaf 2606140260614024169702416970241697)))))))
 (.node 32 (.node 16 (.node 8 (.node 4 (.node 2 (.node 1 (.leaf 2653451000000100000010000001000000)
 (.leaf 2675820267582026758202675821000000))
 (.node 1 (.leaf 2764770276477025418110000001000000)
 (.leaf 2798291000000100000010000001000000)))
 (.node 2 (.node 1 (.leaf 2821680282168028216810000001000000)
 (.leaf 2870750287075028707502870750287075))
 (.node 1 (.leaf 2921001000000100000010000001000000)
 (.leaf 2931980293198029319810000001000000))))
 (.node 4 (.node 2 (.node 1 (.leaf 2965190296519100000010000001000000)
 (.leaf 2987140104871010329201032920103292))
 (.node 1 (.leaf 3072601000000100000010000001000000)
 (.leaf 3123170349689049621206306411000000)))
 (.node 2 (.node 1 (.leaf 3223630287532028753202875321000000)
 (.leaf 3240780324078008354400835440083544))
 (.node 1 (.leaf 3269580326958032695803269581000000)
 (.leaf 3318480331848100000010000001000000)))))
 (.node 8 (.node 4 (.node 2 (.node 1 (.leaf 3371920265800013416601502200213163)
 (.leaf 3379620337962033796210000001000000))
 (.node 1 (.leaf 3399111000000100000010000001000000)
 (.leaf 3595030250900025090010000001000000)))
 (.node 2 (.node 1 (.leaf 3613860361386036138610000001000000)
 (.leaf 3699461000000100000010000001000000))
 (.node 1 (.leaf 3702690370269037026910000001000000)
 (.leaf 3776060377606044888104048230571493))))
 (.node 4 (.node 2 (.node 1 (.leaf 3797680379768016669001666900546806)
 (.leaf 3819710381971100000010000001000000))
 (.node 1 (.leaf 3866370386637038663703866370293299)
 (.leaf 4000410105989010598901263460148642)))
 (.node 2 (.node 1 (.leaf 4011020401102040110210000001000000)
 (.leaf 4032360403236040323604032360285437))
 (.node 1 (.leaf 4145230414523041452310000001000000)
 (.leaf 4155360284209028420902842090415536))))))
 (.node 16 (.node 8 (.node 4 (.node 2 (.node 1 (.leaf 4184550418455041845504184550141904)
 (.leaf 4219740421974042197404219741000000))
 (.node 1 (.leaf 4306691000000100000010000001000000)
 (.leaf 4312970431297100000010000001000000)))
 (.node 2 (.node 1 (.leaf 4364650436465100000010000001000000)
 (.leaf 4387690438769043876910000001000000))
 (.node 1 (.leaf 4527250460259046025904602590460259)
 (.leaf 4531951000000100000010000001000000))))
 (.node 4 (.node 2 (.node 1 (.leaf 4591970459197100000010000001000000)
 (.leaf 4631370463137046313703765390315181))
 (.node 1 (.leaf 4660250396471038880510000001000000)
 (.leaf 4742670474267100000010000001000000)))
 (.node 2 (.node 1 (.leaf 4743240272509053324501432170143217)
 (.leaf 4782700478270047827006443851000000))
 (.node 1 (.leaf 4811081000000100000010000001000000)
 (.leaf 4857390485739100000010000001000000)))))
 (.node 8 (.node 4 (.node 2 (.node 1 (.leaf 4875100683072068307206830720526031)
 (.leaf 4906091000000100000010000001000000))
 (.node 1 (.leaf 4933250339776021396802139680213968)
 (.leaf 4996460661398100000010000001000000)))
 (.node 2 (.node 1 (.leaf 5066750348971021975802197580219758)
 (.leaf 5125090512509100000010000001000000))
 (.node 1 (.leaf 5142610514261100000010000001000000)
 (.leaf 5263901000000100000010000001000000))))
 (.node 4 (.node 2 (.node 1 (.leaf 5267731000000100000010000001000000)
 (.leaf 5309070539742053974205397420539742))
 (.node 1 (.leaf 5333180533318100000010000001000000)
 (.leaf 5368630536863053686304364800365355)))
 (.node 2 (.node 1 (.leaf 5419491000000100000010000001000000)
 (.leaf 5525040552504100000010000001000000))
 (.node 1 (.leaf 5631080563108056310810000001000000)
 (.leaf 5635350563535100000010000001000000))))))))
 (.node 64 (.node 32 (.node 16 (.node 8 (.node 4 (.node 2 (.node 1 (.leaf 5695100569510056951010000001000000)
 (.leaf 5799820359724035972401578920157892))
 (.node 1 (.leaf 5815450581545058154505815450197210)
 (.leaf 5837921000000100000010000001000000)))
 (.node 2 (.node 1 (.leaf 5844640399749039974903997490584464)
 (.leaf 5854780585478058547810000001000000))
 (.node 1 (.leaf 5893650154814100000010000001000000)
 (.leaf 5967640596764059676405967640422429))))
 (.node 4 (.node 2 (.node 1 (.leaf 6070590607059072365708513581000000)
 (.leaf 6133630613363061336306133630465289))
 (.node 1 (.leaf 6300541000000100000010000001000000)
 (.leaf 6314370272033027203303233800291640)))
 (.node 2 (.node 1 (.leaf 6386140638614063861410000001000000)
 (.leaf 6457141000000100000010000001000000))
 (.node 1 (.leaf 6489260639154063915406391541000000)
 (.leaf 6502350650235100000010000001000000)))))
 (.node 8 (.node 4 (.node 2 (.node 1 (.leaf 6531730403680040368010000001000000)
 (.leaf 6600891000000100000010000001000000))
 (.node 1 (.leaf 6644210664421066442110000001000000)
 (.leaf 6730420673042067304206730421000000)))
 (.node 2 (.node 1 (.leaf 6741050674105100000010000001000000)
 (.leaf 6759220675922017424601742460174246))
 (.node 1 (.leaf 6776370604420060442006044201000000)
 (.leaf 6811340681134100000010000001000000))))
 (.node 4 (.node 2 (.node 1 (.leaf 6816740681674016901101710680171068)
 (.leaf 7012860246203024249602424960242496))
 (.node 1 (.leaf 7034810703481100000010000001000000)
 (.leaf 7072070443041044304110000001000000)))
 (.node 2 (.node 1 (.leaf 7129250712925071292507129250712925)
 (.leaf 7178330717833071783310000001000000))
 (.node 1 (.leaf 7193330719333100000010000001000000)
 (.leaf 7231500723150003576400340350034035))))))
 (.node 16 (.node 8 (.node 4 (.node 2 (.node 1 (.leaf 7319300731930073193007319301000000)
 (.leaf 7320040732004073200410000001000000))
 (.node 1 (.leaf 7393860739386068571806857180685718)
 (.leaf 7455290745529074552907455290745529)))
 (.node 2 (.node 1 (.leaf 7622241000000100000010000001000000)
 (.leaf 7656931000000100000010000001000000))
 (.node 1 (.leaf 7700910770091100000010000001000000)
 (.leaf 7704260770426100000010000001000000))))
 (.node 4 (.node 2 (.node 1 (.leaf 7736990773699077369910000001000000)
 (.leaf 7863041000000100000010000001000000))
 (.node 1 (.leaf 7875600787560078756010000001000000)
 (.leaf 7881040788104100000010000001000000)))
 (.node 2 (.node 1 (.leaf 7915990474927012582901258290149997)
 (.leaf 7944460794446079444607944461000000))
 (.node 1 (.leaf 7949970794997079499707949971000000)
 (.leaf 7998460733537073353707335370733537)))))
 (.node 8 (.node 4 (.node 2 (.node 1 (.leaf 8189660828932082893210000001000000)
 (.leaf 8219901000000100000010000001000000))
 (.node 1 (.leaf 8233830823383100000010000001000000)
 (.leaf 8237161000000100000010000001000000)))
 (.node 2 (.node 1 (.leaf 8245790660489034199102625020262502)
 (.leaf 8254740825474082547410000001000000))
 (.node 1 (.leaf 8303150597969100000010000001000000)
 (.leaf 8393330839333083933308393330839333))))
 (.node 4 (.node 2 (.node 1 (.leaf 8480171000000100000010000001000000)
 (.leaf 8525311000000100000010000001000000))
 (.node 1 (.leaf 8617731000000100000010000001000000)
 (.leaf 8708720675923067592310000001000000)))
 (.node 2 (.node 1 (.leaf 8721950872195087219508721951000000)
 (.leaf 8801880880188088018808801880667472))
 (.node 1 (.leaf 8829580882958079092407158880790464)
 (.leaf 8829910851925085192508519250851925)))))))
 (.node 32 (.node 16 (.node 8 (.node 4 (.node 2 (.node 1 (.leaf 8852510514793051479308852511000000)
 (.leaf 8865581000000100000010000001000000))
 (.node 1 (.leaf 9157290915729100000010000001000000)
 (.leaf 9384150938415093841509384151000000)))
 (.node 2 (.node 1 (.leaf 9400870940087094008710000001000000)
 (.leaf 9401380998513099552909946600994660))
 (.node 1 (.leaf 9429741000000100000010000001000000)
 (.leaf 9442610944261094426109442610944261))))
 (.node 4 (.node 2 (.node 1 (.leaf 9500580950058095005809500580950058)
 (.leaf 9591360959136099059009905901000000))
 (.node 1 (.leaf 9615771000000100000010000001000000)
 (.leaf 9619960961996096199609619960794600)))
 (.node 2 (.node 1 (.leaf 9726490779875076123601199450676296)
 (.leaf 9738031000000100000010000001000000))
 (.node 1 (.leaf 9750681000000100000010000001000000)
 (.leaf 9751431000000100000010000001000000)))))
 (.node 8 (.node 4 (.node 2 (.node 1 (.leaf 9839790983979096132809766150058463)
 (.leaf 9911930991193084909108555451000000))
 (.node 1 (.leaf 10000000004346000434600043460004346)
 (.leaf 10000000020033011295108504411000000)))
 (.node 2 (.node 1 (.leaf 10000000022418002241800224180022418)
 (.leaf 10000000026197100000010000001000000))
 (.node 1 (.leaf 10000000032296100000010000001000000)
 (.leaf 10000000034667003466700346671000000))))
 (.node 4 (.node 2 (.node 1 (.leaf 10000000058186005818600581860467402)
 (.leaf 10000000059521100000010000001000000))
 (.node 1 (.leaf 10000000059913005991300599131000000)
 (.leaf 10000000061585006158500615850061585)))
 (.node 2 (.node 1 (.leaf 10000000072585007258500725851000000)
 (.leaf 10000000080643100000010000001000000))
 (.node 1 (.leaf 10000000083326100000010000001000000)
 (.leaf 10000000098025009802500980251000000))))))
 (.node 16 (.node 8 (.node 4 (.node 2 (.node 1 (.leaf 10000000105525010552510000001000000)
 (.leaf 10000000109791100000010000001000000))
 (.node 1 (.leaf 10000000112172011217201645590482608)
 (.leaf 10000000114749006672900667290114749)))
 (.node 2 (.node 1 (.leaf 10000000116522100000010000000070752)
 (.leaf 10000000124330012433001243301000000))
 (.node 1 (.leaf 10000000127805012780501278050127805)
 (.leaf 10000000137362100000010000001000000))))
 (.node 4 (.node 2 (.node 1 (.leaf 10000000149249014636310000001000000)
 (.leaf 10000000151983100000010000001000000))
 (.node 1 (.leaf 10000000152346004849600484960012024)
 (.leaf 10000000163802100000010000001000000)))
 (.node 2 (.node 1 (.leaf 10000000171251100000010000001000000)
 (.leaf 10000000176617017661710000001000000))
 (.node 1 (.leaf 10000000182920020480902906250369359)
 (.leaf 10000000190359019035901903590079229)))))
 (.node 8 (.node 4 (.node 2 (.node 1 (.leaf 10000000198194019345800304820171871)
 (.leaf 10000000201434020143401941720843409))
 (.node 1 (.leaf 10000000208402012503200331270033127)
 (.leaf 10000000226193031692803169280316928)))
 (.node 2 (.node 1 (.leaf 10000000237776100000010000001000000)
 (.leaf 10000000243528100000000239000003766))
 (.node 1 (.leaf 10000000247062015467010000001000000)
 (.leaf 10000000263941026394102639410355615))))
 (.node 4 (.node 2 (.node 1 (.leaf 10000000268070026807002680700268070)
 (.leaf 10000000268911026891102689110268911))
 (.node 1 (.leaf 10000000281361100000010000001000000)
 (.leaf 10000000289232000435500043550004355)))
 (.node 2 (.node 1 (.leaf 10000000292794018342601834261000000)
 (.leaf 10000000304469057685505768550576855))
 (.node 1 (.leaf 10000000308196030819603081960308196)
 (.leaf 10000000311253019600601960060196006)))))))))
 (.node 128 (.node 64 (.node 32 (.node 16 (.node 8 (.node 4 (.node 2 (.node 1 (.leaf 10000000325895032589510000001000000)
 (.leaf 10000000335580033558003355801000000))
 (.node 1 (.leaf 10000000339005033900510000001000000)
 (.leaf 10000000347641100000010000001000000)))
 (.node 2 (.node 1 (.leaf 10000000357552035755203575521000000)
 (.leaf 10000000360004036000410000001000000))
 (.node 1 (.leaf 10000000361136100000010000001000000)
 (.leaf 10000000372525037252503725251000000))))
 (.node 4 (.node 2 (.node 1 (.leaf 10000000373533037353310000001000000)
 (.leaf 10000000373964100000010000001000000))
 (.node 1 (.leaf 10000000390263032691706682230505492)
 (.leaf 10000000402415087987410000001000000)))
 (.node 2 (.node 1 (.leaf 10000000405139040513904051390191303)
 (.leaf 10000000414544041454404145441000000))
 (.node 1 (.leaf 10000000424245042424504242450424245)
 (.leaf 10000000426539100000010000001000000)))))
 (.node 8 (.node 4 (.node 2 (.node 1 (.leaf 10000000458051100000010000001000000)
 (.leaf 10000000465592046559204655921000000))
 (.node 1 (.leaf 10000000466965100000010000001000000)
 (.leaf 10000000471841100000010000001000000)))
 (.node 2 (.node 1 (.leaf 10000000473610100000010000001000000)
 (.leaf 10000000473969100000010000001000000))
 (.node 1 (.leaf 10000000478302043777008378190837819)
 (.leaf 10000000482215037013403701340542995))))
 (.node 4 (.node 2 (.node 1 (.leaf 10000000509391100000010000001000000)
 (.leaf 10000000518777051877705187771000000))
 (.node 1 (.leaf 10000000518881064244806424480642448)
 (.leaf 10000000528793100000010000001000000)))
 (.node 2 (.node 1 (.leaf 10000000551499055149908267220826722)
 (.leaf 10000000561231056123105612311000000))
 (.node 1 (.leaf 10000000575755057575505757550575755)
 (.leaf 10000000578026057802605780260578026))))))
 (.node 16 (.node 8 (.node 4 (.node 2 (.node 1 (.leaf 10000000594861059486105948610280888)
 (.leaf 10000000627475062747506274751000000))
 (.node 1 (.leaf 10000000638864100000010000001000000)
 (.leaf 10000000639189063918906391891000000)))
 (.node 2 (.node 1 (.leaf 10000000640497044700704470071000000)
 (.leaf 10000000660995066099510000001000000))
 (.node 1 (.leaf 10000000662808052247402637260295283)
 (.leaf 10000000691804069180406918040691804))))
 (.node 4 (.node 2 (.node 1 (.leaf 10000000693388069338805256760302012)
 (.leaf 10000000710768001070300107030010703))
 (.node 1 (.leaf 10000000723523072352306651761000000)
 (.leaf 10000000731089073108907310890731089)))
 (.node 2 (.node 1 (.leaf 10000000732418073241807324180732418)
 (.leaf 10000000734655100000010000001000000))
 (.node 1 (.leaf 10000000742919100000010000001000000)
 (.leaf 10000000765617076561710000001000000)))))
 (.node 8 (.node 4 (.node 2 (.node 1 (.leaf 10000000775656100000010000000321561)
 (.leaf 10000000790331079033110000001000000))
 (.node 1 (.leaf 10000000795956079595607959560795956)
 (.leaf 10000000797370079737007973700797370)))
 (.node 2 (.node 1 (.leaf 10000000809405080940508094051000000)
 (.leaf 10000000809641080964108096410336979))
 (.node 1 (.leaf 10000000812233081223308122330812233)
 (.leaf 10000000821469082146908214691000000))))
 (.node 4 (.node 2 (.node 1 (.leaf 10000000843668084366808436681000000)
 (.leaf 10000000862002100000010000001000000))
 (.node 1 (.leaf 10000000865640086564008656401000000)
 (.leaf 10000000901665090166509016651000000)))
 (.node 2 (.node 1 (.leaf 10000000906304100000010000001000000)
 (.leaf 10000000950544090459609045960936469))
 (.node 1 (.leaf 10000000959808100000010000001000000)
 (.leaf 10000000977582097758209775820977582)))))))
 (.node 32 (.node 16 (.node 8 (.node 4 (.node 2 (.node 1 (.leaf 10000001000000000298900029860002986)
 (.leaf 10000001000000000880700088070007544))
 (.node 1 (.leaf 10000001000000001602100160210015652)
 (.leaf 10000001000000004019310000001000000)))
 (.node 2 (.node 1 (.leaf 10000001000000005278500527850061609)
 (.leaf 10000001000000007921400792140079214))
 (.node 1 (.leaf 10000001000000009369610000001000000)
 (.leaf 10000001000000009487201047550022593))))
 (.node 4 (.node 2 (.node 1 (.leaf 10000001000000009833500983350098335)
 (.leaf 10000001000000015633201563320156332))
 (.node 1 (.leaf 10000001000000016231703317770250980)
 (.leaf 10000001000000017801010000001000000)))
 (.node 2 (.node 1 (.leaf 10000001000000017853101785310178531)
 (.leaf 10000001000000019059501905950190595))
 (.node 1 (.leaf 10000001000000020578002057800205780)
 (.leaf 10000001000000021006502100650210065)))))
 (.node 8 (.node 4 (.node 2 (.node 1 (.leaf 10000001000000021244002124400212440)
 (.leaf 10000001000000023190502319050231905))
 (.node 1 (.leaf 10000001000000026799602679960267996)
 (.leaf 10000001000000027685002768500013692)))
 (.node 2 (.node 1 (.leaf 10000001000000030209403020941000000)
 (.leaf 10000001000000030692603069261000000))
 (.node 1 (.leaf 10000001000000031604203160420316042)
 (.leaf 10000001000000031886603188661000000))))
 (.node 4 (.node 2 (.node 1 (.leaf 10000001000000032999303299930329993)
 (.leaf 10000001000000034682702143490214349))
 (.node 1 (.leaf 10000001000000035428610000001000000)
 (.leaf 10000001000000036081103608110360811)))
 (.node 2 (.node 1 (.leaf 10000001000000036856301587830158783)
 (.leaf 10000001000000043049004304900430490))
 (.node 1 (.leaf 10000001000000043810204381020438102)
 (.leaf 10000001000000046876404687640490166))))))
 (.node 16 (.node 8 (.node 4 (.node 2 (.node 1 (.leaf 10000001000000047120710000001000000)
 (.leaf 10000001000000047650610000001000000))
 (.node 1 (.leaf 10000001000000048122304812230481223)
 (.leaf 10000001000000048548710000001000000)))
 (.node 2 (.node 1 (.leaf 10000001000000050983510000001000000)
 (.leaf 10000001000000052349410000001000000))
 (.node 1 (.leaf 10000001000000052573305257331000000)
 (.leaf 10000001000000053440805344080534408))))
 (.node 4 (.node 2 (.node 1 (.leaf 10000001000000056061602385310466755)
 (.leaf 10000001000000059889805988980598898))
 (.node 1 (.leaf 10000001000000063673110000001000000)
 (.leaf 10000001000000065062406506241000000)))
 (.node 2 (.node 1 (.leaf 10000001000000066203806620380662038)
 (.leaf 10000001000000070680207068020706802))
 (.node 1 (.leaf 10000001000000071135307113531000000)
 (.leaf 10000001000000072393707239371000000)))))
 (.node 8 (.node 4 (.node 2 (.node 1 (.leaf 10000001000000077454706754170675417)
 (.leaf 10000001000000077703900317530031753))
 (.node 1 (.leaf 10000001000000078993507899350789935)
 (.leaf 10000001000000079422007942200794220)))
 (.node 2 (.node 1 (.leaf 10000001000000079856607985660769777)
 (.leaf 10000001000000080399808039980938391))
 (.node 1 (.leaf 10000001000000084765402698300269830)
 (.leaf 10000001000000085975210000001000000))))
 (.node 4 (.node 2 (.node 1 (.leaf 10000001000000086419707033120703312)
 (.leaf 10000001000000087567008756700875670))
 (.node 1 (.leaf 10000001000000089020910000001000000)
 (.leaf 10000001000000090197509019750901975)))
 (.node 2 (.node 1 (.leaf 10000001000000090488710000001000000)
 (.leaf 10000001000000092078609207860920786))
 (.node 1 (.leaf 10000001000000093286303830660100624)
 (.leaf 10000001000000094181409418140941814))))))))
 (.node 64 (.node 32 (.node 16 (.node 8 (.node 4 (.node 2 (.node 1 (.leaf 10000001000000096533309653330965333)
 (.leaf 10000001000000097194906927401000000))
 (.node 1 (.leaf 10000001000000097970610000001000000)
 (.leaf 10000001000000098225209822520967897)))
 (.node 2 (.node 1 (.leaf 10000001000000099779909947740994774)
 (.leaf 10000001000000100000000030310003031))
 (.node 1 (.leaf 10000001000000100000000177480017748)
 (.leaf 10000001000000100000000248581000000))))
 (.node 4 (.node 2 (.node 1 (.leaf 10000001000000100000000321031000000)
 (.leaf 10000001000000100000000549400120126))
 (.node 1 (.leaf 10000001000000100000001042340094345)
 (.leaf 10000001000000100000001121521000000)))
 (.node 2 (.node 1 (.leaf 10000001000000100000001279970127997)
 (.leaf 10000001000000100000001869810156512))
 (.node 1 (.leaf 10000001000000100000002031561000000)
 (.leaf 10000001000000100000002117260106871)))))
 (.node 8 (.node 4 (.node 2 (.node 1 (.leaf 10000001000000100000002295740229574)
 (.leaf 10000001000000100000002760630276063))
 (.node 1 (.leaf 10000001000000100000002806670280667)
 (.leaf 10000001000000100000002886470288647)))
 (.node 2 (.node 1 (.leaf 10000001000000100000003066120306612)
 (.leaf 10000001000000100000003329090332909))
 (.node 1 (.leaf 10000001000000100000003493760349376)
 (.leaf 10000001000000100000003497650349765))))
 (.node 4 (.node 2 (.node 1 (.leaf 10000001000000100000004184790418479)
 (.leaf 10000001000000100000004393840186949))
 (.node 1 (.leaf 10000001000000100000004628910393805)
 (.leaf 10000001000000100000004634660940254)))
 (.node 2 (.node 1 (.leaf 10000001000000100000004666820466682)
 (.leaf 10000001000000100000004732271000000))
 (.node 1 (.leaf 10000001000000100000004874910487491)
 (.leaf 10000001000000100000005216980477489))))))
 (.node 16 (.node 8 (.node 4 (.node 2 (.node 1 (.leaf 10000001000000100000005281591000000)
 (.leaf 10000001000000100000005312360531236))
 (.node 1 (.leaf 10000001000000100000005325980225453)
 (.leaf 10000001000000100000005330351000000)))
 (.node 2 (.node 1 (.leaf 10000001000000100000005408040540804)
 (.leaf 10000001000000100000005687040568704))
 (.node 1 (.leaf 10000001000000100000005693311000000)
 (.leaf 10000001000000100000006097370510766))))
 (.node 4 (.node 2 (.node 1 (.leaf 10000001000000100000006399960639996)
 (.leaf 10000001000000100000006608860542644))
 (.node 1 (.leaf 10000001000000100000006681520668152)
 (.leaf 10000001000000100000006784391000000)))
 (.node 2 (.node 1 (.leaf 10000001000000100000006930740693074)
 (.leaf 10000001000000100000007143760883478))
 (.node 1 (.leaf 10000001000000100000007529380471367)
 (.leaf 10000001000000100000007750730627459)))))
 (.node 8 (.node 4 (.node 2 (.node 1 (.leaf 10000001000000100000008604101000000)
 (.leaf 10000001000000100000008944750894475))
 (.node 1 (.leaf 10000001000000100000009774071000000)
 (.leaf 10000001000000100000009941320994132)))
 (.node 2 (.node 1 (.leaf 10000001000000100000009944681000000)
 (.leaf 10000001000000100000010000000005532))
 (.node 1 (.leaf 10000001000000100000010000000016369)
 (.leaf 10000001000000100000010000000028051))))
 (.node 4 (.node 2 (.node 1 (.leaf 10000001000000100000010000000038423)
 (.leaf 10000001000000100000010000000057026))
 (.node 1 (.leaf 10000001000000100000010000000113442)
 (.leaf 10000001000000100000010000000137998)))
 (.node 2 (.node 1 (.leaf 10000001000000100000010000000139590)
 (.leaf 10000001000000100000010000000147469))
 (.node 1 (.leaf 10000001000000100000010000000162952)
 (.leaf 10000001000000100000010000000224344)))))))
 (.node 16 (.node 8 (.node 4 (.node 2 (.node 1 (.leaf 10000001000000100000010000000257081)
 (.leaf 10000001000000100000010000000285624))
 (.node 1 (.leaf 10000001000000100000010000000286298)
 (.leaf 10000001000000100000010000000292134)))
 (.node 2 (.node 1 (.leaf 10000001000000100000010000000363269)
 (.leaf 10000001000000100000010000000382031))
 (.node 1 (.leaf 10000001000000100000010000000452724)
 (.leaf 10000001000000100000010000000481119))))
 (.node 4 (.node 2 (.node 1 (.leaf 10000001000000100000010000000507085)
 (.leaf 10000001000000100000010000000514513))
 (.node 1 (.leaf 10000001000000100000010000000547276)
 (.leaf 10000001000000100000010000000617969)))
 (.node 2 (.node 1 (.leaf 10000001000000100000010000000796844)
 (.leaf 10000001000000100000010000000836198))
 (.node 1 (.leaf 10000001000000100000010000000862638)
 (.leaf 10000001000000100000010000000887848)))))
 (.node 1 (.leaf 10000001000000100000010000000929248)
 (.leaf 10000001000000100000010000000967704))))))

end WG
