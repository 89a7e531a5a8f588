/-!
# Pearson III table

Generated by `tools/gen_pearson_table.py` from `/repo/misc/K_PEARSON_3.csv`, column of the return period 1.5 years.
-/

namespace WG

/-- Skewness times 10 and k value times 10000; `/repo/misc/K_PEARSON_3.csv:5-65`, read by
`/repo/misc/bankfull_flow.py:127-130`. -/
def pearsonTable : List (Int × Int) :=
  [(0, -4307), (1, -4441), (2, -4570), (3, -4696), (4, -4816), (5, -4932), (6, -5043), (7, -5149),
   (8, -5250), (9, -5345), (10, -5434), (11, -5517), (12, -5594), (13, -5664), (14, -5727), (15, -5783),
   (16, -5832), (17, -5872), (18, -5905), (19, -5929), (20, -5945), (21, -5953), (22, -5952), (23, -5942),
   (24, -5924), (25, -5898), (26, -5864), (27, -5823), (28, -5774), (29, -5719), (30, -5657), (31, -5590),
   (32, -5518), (33, -5441), (34, -5361), (35, -5277), (36, -5191), (37, -5103), (38, -5013), (39, -4923),
   (40, -4832), (41, -4742), (42, -4652), (43, -4562), (44, -4475), (45, -4388), (46, -4303), (47, -4220),
   (48, -4139), (49, -4060), (50, -3983), (51, -3909), (52, -3836), (53, -3766), (54, -3698), (55, -3632),
   (56, -3568), (57, -3506), (58, -3447), (59, -3389), (60, -3332)]

end WG
