import Verif.Lemmas.SGGroup

/-! Codes of the operators of every space group, in the order in which they are generated,
with a search tree. The table is data found outside Lean; `Verif.Lemmas.SGRun*` check it in
the kernel. -/
namespace Hexrd.SpaceGroup

/-- Space groups with a second origin in `SYM_GL`. -/
def altGroups : List Nat := [48, 50, 59, 68, 70, 85, 86, 88, 125, 126, 129, 130, 133, 134, 137, 138, 141, 142, 201, 203, 222, 224, 227, 228]

local notation "l" => Tree.leaf
local notation "n" => Tree.node

def codes0_1 : List Nat × Tree := ([1521685729654272], (n l 1521685729654272 0 l))
def codes0_2 : List Nat × Tree := ([1521685729654272, 34998771782048256], (n (n l 1521685729654272 0
    l) 34998771782048256 1 l))
def codes0_3 : List Nat × Tree := ([1521685729654272, 34998670879676928], (n (n l 1521685729654272 0
    l) 34998670879676928 1 l))
def codes0_4 : List Nat × Tree := ([1521685729654272, 34998670879677216], (n (n l 1521685729654272 0
    l) 34998670879677216 1 l))
def codes0_5 : List Nat × Tree := ([1521685729654272, 1521685729661472, 34998670879676928,
    34998670879684128], (n (n (n l 1521685729654272 0 l) 1521685729661472 1 l) 34998670879676928 2
    (n l 34998670879684128 3 l)))
def codes0_6 : List Nat × Tree := ([1521685729654272, 1521786632025600], (n (n l 1521685729654272 0
    l) 1521786632025600 1 l))
def codes0_7 : List Nat × Tree := ([1521685729654272, 1521786632025612], (n (n l 1521685729654272 0
    l) 1521786632025612 1 l))
def codes0_8 : List Nat × Tree := ([1521685729654272, 1521685729661472, 1521786632025600,
    1521786632032800], (n (n (n l 1521685729654272 0 l) 1521685729661472 1 l) 1521786632025600 2 (n
    l 1521786632032800 3 l)))
def codes0_9 : List Nat × Tree := ([1521685729654272, 1521685729661472, 1521786632025612,
    1521786632032812], (n (n (n l 1521685729654272 0 l) 1521685729661472 1 l) 1521786632025612 2 (n
    l 1521786632032812 3 l)))
def codes0_10 : List Nat × Tree := ([1521685729654272, 34998771782048256, 34998670879676928,
    1521786632025600], (n (n (n l 1521685729654272 0 l) 1521786632025600 3 l) 34998670879676928 2 (n
    l 34998771782048256 1 l)))
def codes0_11 : List Nat × Tree := ([1521685729654272, 34998771782048256, 34998670879677216,
    1521786632025888], (n (n (n l 1521685729654272 0 l) 1521786632025888 3 l) 34998670879677216 2 (n
    l 34998771782048256 1 l)))
def codes0_12 : List Nat × Tree := ([1521685729654272, 34998771782048256, 1521685729661472,
    34998670879676928, 34998771782055456, 1521786632025600, 34998670879684128, 1521786632032800], (n
    (n (n (n l 1521685729654272 0 l) 1521685729661472 2 l) 1521786632025600 5 (n l 1521786632032800
    7 l)) 34998670879676928 3 (n (n l 34998670879684128 6 l) 34998771782048256 1 (n l
    34998771782055456 4 l))))
def codes0_13 : List Nat × Tree := ([1521685729654272, 34998771782048256, 34998670879676940,
    1521786632025612], (n (n (n l 1521685729654272 0 l) 1521786632025612 3 l) 34998670879676940 2 (n
    l 34998771782048256 1 l)))
def codes0_14 : List Nat × Tree := ([1521685729654272, 34998771782048256, 34998670879677228,
    1521786632025900], (n (n (n l 1521685729654272 0 l) 1521786632025900 3 l) 34998670879677228 2 (n
    l 34998771782048256 1 l)))
def codes0_15 : List Nat × Tree := ([1521685729654272, 34998771782048256, 1521685729661472,
    34998670879676940, 34998771782055456, 1521786632025612, 34998670879684140, 1521786632032812], (n
    (n (n (n l 1521685729654272 0 l) 1521685729661472 2 l) 1521786632025612 5 (n l 1521786632032812
    7 l)) 34998670879676940 3 (n (n l 34998670879684140 6 l) 34998771782048256 1 (n l
    34998771782055456 4 l))))
def codes0_16 : List Nat × Tree := ([1521685729654272, 34998771781744128, 34998670879676928,
    1521786632329728], (n (n (n l 1521685729654272 0 l) 1521786632329728 3 l) 34998670879676928 2 (n
    l 34998771781744128 1 l)))
def codes0_17 : List Nat × Tree := ([1521685729654272, 34998771781744140, 34998670879676940,
    1521786632329728], (n (n (n l 1521685729654272 0 l) 1521786632329728 3 l) 34998670879676940 2 (n
    l 34998771781744140 1 l)))
def codes0_18 : List Nat × Tree := ([1521685729654272, 34998771781744128, 34998670879684128,
    1521786632336928], (n (n (n l 1521685729654272 0 l) 1521786632336928 3 l) 34998670879684128 2 (n
    l 34998771781744128 1 l)))
def codes0_19 : List Nat × Tree := ([1521685729654272, 34998771781751052, 34998670879677228,
    1521786632336928], (n (n (n l 1521685729654272 0 l) 1521786632336928 3 l) 34998670879677228 2 (n
    l 34998771781751052 1 l)))
def codes0_20 : List Nat × Tree := ([1521685729654272, 1521685729661472, 34998771781744140,
    34998670879676940, 34998771781751340, 34998670879684140, 1521786632329728, 1521786632336928], (n
    (n (n (n l 1521685729654272 0 l) 1521685729661472 1 l) 1521786632329728 6 (n l 1521786632336928
    7 l)) 34998670879676940 3 (n (n l 34998670879684140 5 l) 34998771781744140 2 (n l
    34998771781751340 4 l))))
def codes0_21 : List Nat × Tree := ([1521685729654272, 1521685729661472, 34998771781744128,
    34998670879676928, 34998771781751328, 34998670879684128, 1521786632329728, 1521786632336928], (n
    (n (n (n l 1521685729654272 0 l) 1521685729661472 1 l) 1521786632329728 6 (n l 1521786632336928
    7 l)) 34998670879676928 3 (n (n l 34998670879684128 5 l) 34998771781744128 2 (n l
    34998771781751328 4 l))))
def codes0_22 : List Nat × Tree := ([1521685729654272, 1521685729654572, 1521685729661196,
    34998771781744128, 34998670879676928, 1521685729661472, 34998771781744428, 34998670879677228,
    34998771781751052, 34998670879683852, 34998771781751328, 34998670879684128, 1521786632329728,
    1521786632330028, 1521786632336652, 1521786632336928], (n (n (n (n (n l 1521685729654272 0 l)
    1521685729654572 1 l) 1521685729661196 2 (n l 1521685729661472 5 l)) 1521786632329728 12 (n (n l
    1521786632330028 13 l) 1521786632336652 14 (n l 1521786632336928 15 l))) 34998670879676928 4 (n
    (n (n l 34998670879677228 7 l) 34998670879683852 9 (n l 34998670879684128 11 l))
    34998771781744128 3 (n (n l 34998771781744428 6 l) 34998771781751052 8 (n l 34998771781751328 10
    l)))))
def codes0_23 : List Nat × Tree := ([1521685729654272, 1521685729661484, 34998771781744128,
    34998670879676928, 34998771781751340, 34998670879684140, 1521786632329728, 1521786632336940], (n
    (n (n (n l 1521685729654272 0 l) 1521685729661484 1 l) 1521786632329728 6 (n l 1521786632336940
    7 l)) 34998670879676928 3 (n (n l 34998670879684140 5 l) 34998771781744128 2 (n l
    34998771781751340 4 l))))
def codes0_24 : List Nat × Tree := ([1521685729654272, 1521685729661484, 34998771781751052,
    34998670879677228, 34998771781744416, 34998670879683840, 1521786632336928, 1521786632329740], (n
    (n (n (n l 1521685729654272 0 l) 1521685729661484 1 l) 1521786632329740 7 (n l 1521786632336928
    6 l)) 34998670879677228 3 (n (n l 34998670879683840 5 l) 34998771781744416 4 (n l
    34998771781751052 2 l))))
def codes0_25 : List Nat × Tree := ([1521685729654272, 34998771781744128, 1521786632025600,
    34998670879372800], (n (n (n l 1521685729654272 0 l) 1521786632025600 2 l) 34998670879372800 3
    (n l 34998771781744128 1 l)))
def codes0_26 : List Nat × Tree := ([1521685729654272, 34998771781744140, 1521786632025612,
    34998670879372800], (n (n (n l 1521685729654272 0 l) 1521786632025612 2 l) 34998670879372800 3
    (n l 34998771781744140 1 l)))
def codes0_27 : List Nat × Tree := ([1521685729654272, 34998771781744128, 1521786632025612,
    34998670879372812], (n (n (n l 1521685729654272 0 l) 1521786632025612 2 l) 34998670879372812 3
    (n l 34998771781744128 1 l)))
def codes0_28 : List Nat × Tree := ([1521685729654272, 34998771781744128, 1521786632032512,
    34998670879379712], (n (n (n l 1521685729654272 0 l) 1521786632032512 2 l) 34998670879379712 3
    (n l 34998771781744128 1 l)))
def codes0_29 : List Nat × Tree := ([1521685729654272, 34998771781744140, 1521786632032512,
    34998670879379724], (n (n (n l 1521685729654272 0 l) 1521786632032512 2 l) 34998670879379724 3
    (n l 34998771781744140 1 l)))
def codes0_30 : List Nat × Tree := ([1521685729654272, 34998771781744128, 1521786632025900,
    34998670879373100], (n (n (n l 1521685729654272 0 l) 1521786632025900 2 l) 34998670879373100 3
    (n l 34998771781744128 1 l)))
def codes0_31 : List Nat × Tree := ([1521685729654272, 34998771781751052, 1521786632032524,
    34998670879372800], (n (n (n l 1521685729654272 0 l) 1521786632032524 2 l) 34998670879372800 3
    (n l 34998771781751052 1 l)))
def codes0_32 : List Nat × Tree := ([1521685729654272, 34998771781744128, 1521786632032800,
    34998670879380000], (n (n (n l 1521685729654272 0 l) 1521786632032800 2 l) 34998670879380000 3
    (n l 34998771781744128 1 l)))
def codes0_33 : List Nat × Tree := ([1521685729654272, 34998771781744140, 1521786632032800,
    34998670879380012], (n (n (n l 1521685729654272 0 l) 1521786632032800 2 l) 34998670879380012 3
    (n l 34998771781744140 1 l)))
def codes0_34 : List Nat × Tree := ([1521685729654272, 34998771781744128, 1521786632032812,
    34998670879380012], (n (n (n l 1521685729654272 0 l) 1521786632032812 2 l) 34998670879380012 3
    (n l 34998771781744128 1 l)))
def codes0_35 : List Nat × Tree := ([1521685729654272, 1521685729661472, 34998771781744128,
    1521786632025600, 34998771781751328, 1521786632032800, 34998670879372800, 34998670879380000], (n
    (n (n (n l 1521685729654272 0 l) 1521685729661472 1 l) 1521786632025600 3 (n l 1521786632032800
    5 l)) 34998670879372800 6 (n (n l 34998670879380000 7 l) 34998771781744128 2 (n l
    34998771781751328 4 l))))
def codes0_36 : List Nat × Tree := ([1521685729654272, 1521685729661472, 34998771781744140,
    1521786632025612, 34998771781751340, 1521786632032812, 34998670879372800, 34998670879380000], (n
    (n (n (n l 1521685729654272 0 l) 1521685729661472 1 l) 1521786632025612 3 (n l 1521786632032812
    5 l)) 34998670879372800 6 (n (n l 34998670879380000 7 l) 34998771781744140 2 (n l
    34998771781751340 4 l))))
def codes0_37 : List Nat × Tree := ([1521685729654272, 1521685729661472, 34998771781744128,
    1521786632025612, 34998771781751328, 1521786632032812, 34998670879372812, 34998670879380012], (n
    (n (n (n l 1521685729654272 0 l) 1521685729661472 1 l) 1521786632025612 3 (n l 1521786632032812
    5 l)) 34998670879372812 6 (n (n l 34998670879380012 7 l) 34998771781744128 2 (n l
    34998771781751328 4 l))))
def codes0_38 : List Nat × Tree := ([1521685729654272, 1521685729654572, 34998771781744128,
    1521786632025600, 34998771781744428, 1521786632025900, 34998670879372800, 34998670879373100], (n
    (n (n (n l 1521685729654272 0 l) 1521685729654572 1 l) 1521786632025600 3 (n l 1521786632025900
    5 l)) 34998670879372800 6 (n (n l 34998670879373100 7 l) 34998771781744128 2 (n l
    34998771781744428 4 l))))
def codes0_39 : List Nat × Tree := ([1521685729654272, 1521685729654572, 34998771781744128,
    1521786632025888, 34998771781744428, 1521786632025612, 34998670879373088, 34998670879372812], (n
    (n (n (n l 1521685729654272 0 l) 1521685729654572 1 l) 1521786632025612 5 (n l 1521786632025888
    3 l)) 34998670879372812 7 (n (n l 34998670879373088 6 l) 34998771781744128 2 (n l
    34998771781744428 4 l))))
def codes0_40 : List Nat × Tree := ([1521685729654272, 1521685729654572, 34998771781744128,
    1521786632032512, 34998771781744428, 1521786632032812, 34998670879379712, 34998670879380012], (n
    (n (n (n l 1521685729654272 0 l) 1521685729654572 1 l) 1521786632032512 3 (n l 1521786632032812
    5 l)) 34998670879379712 6 (n (n l 34998670879380012 7 l) 34998771781744128 2 (n l
    34998771781744428 4 l))))
def codes0_41 : List Nat × Tree := ([1521685729654272, 1521685729654572, 34998771781744128,
    1521786632032800, 34998771781744428, 1521786632032524, 34998670879380000, 34998670879379724], (n
    (n (n (n l 1521685729654272 0 l) 1521685729654572 1 l) 1521786632032524 5 (n l 1521786632032800
    3 l)) 34998670879379724 7 (n (n l 34998670879380000 6 l) 34998771781744128 2 (n l
    34998771781744428 4 l))))
def codes0_42 : List Nat × Tree := ([1521685729654272, 1521685729654572, 1521685729661196,
    34998771781744128, 1521786632025600, 1521685729661472, 34998771781744428, 1521786632025900,
    34998771781751052, 1521786632032524, 34998771781751328, 1521786632032800, 34998670879372800,
    34998670879373100, 34998670879379724, 34998670879380000], (n (n (n (n (n l 1521685729654272 0 l)
    1521685729654572 1 l) 1521685729661196 2 (n l 1521685729661472 5 l)) 1521786632025600 4 (n (n l
    1521786632025900 7 l) 1521786632032524 9 (n l 1521786632032800 11 l))) 34998670879372800 12 (n
    (n (n l 34998670879373100 13 l) 34998670879379724 14 (n l 34998670879380000 15 l))
    34998771781744128 3 (n (n l 34998771781744428 6 l) 34998771781751052 8 (n l 34998771781751328 10
    l)))))
def codes0_43 : List Nat × Tree := ([1521685729654272, 1521685729654572, 1521685729661196,
    34998771781744128, 1521786632029206, 1521685729661472, 34998771781744428, 1521786632029506,
    34998771781751052, 1521786632036130, 34998771781751328, 1521786632036406, 34998670879383606,
    34998670879383330, 34998670879376706, 34998670879376406], (n (n (n (n (n l 1521685729654272 0 l)
    1521685729654572 1 l) 1521685729661196 2 (n l 1521685729661472 5 l)) 1521786632029206 4 (n (n l
    1521786632029506 7 l) 1521786632036130 9 (n l 1521786632036406 11 l))) 34998670879376406 15 (n
    (n (n l 34998670879376706 14 l) 34998670879383330 13 (n l 34998670879383606 12 l))
    34998771781744128 3 (n (n l 34998771781744428 6 l) 34998771781751052 8 (n l 34998771781751328 10
    l)))))
def codes0_44 : List Nat × Tree := ([1521685729654272, 1521685729661484, 34998771781744128,
    1521786632025600, 34998771781751340, 1521786632032812, 34998670879372800, 34998670879380012], (n
    (n (n (n l 1521685729654272 0 l) 1521685729661484 1 l) 1521786632025600 3 (n l 1521786632032812
    5 l)) 34998670879372800 6 (n (n l 34998670879380012 7 l) 34998771781744128 2 (n l
    34998771781751340 4 l))))
def codes0_45 : List Nat × Tree := ([1521685729654272, 1521685729661484, 34998771781744128,
    1521786632032800, 34998771781751340, 1521786632025612, 34998670879380000, 34998670879372812], (n
    (n (n (n l 1521685729654272 0 l) 1521685729661484 1 l) 1521786632025612 5 (n l 1521786632032800
    3 l)) 34998670879372812 7 (n (n l 34998670879380000 6 l) 34998771781744128 2 (n l
    34998771781751340 4 l))))
def codes0_46 : List Nat × Tree := ([1521685729654272, 1521685729661484, 34998771781744128,
    1521786632032512, 34998771781751340, 1521786632025900, 34998670879379712, 34998670879373100], (n
    (n (n (n l 1521685729654272 0 l) 1521685729661484 1 l) 1521786632025900 5 (n l 1521786632032512
    3 l)) 34998670879373100 7 (n (n l 34998670879379712 6 l) 34998771781744128 2 (n l
    34998771781751340 4 l))))
def codes0_47 : List Nat × Tree := ([1521685729654272, 34998771782048256, 34998771781744128,
    34998670879676928, 1521685729958400, 1521786632025600, 1521786632329728, 34998670879372800], (n
    (n (n (n l 1521685729654272 0 l) 1521685729958400 4 l) 1521786632025600 5 (n l 1521786632329728
    6 l)) 34998670879372800 7 (n (n l 34998670879676928 3 l) 34998771781744128 2 (n l
    34998771782048256 1 l))))
def codes0_48 : List Nat × Tree := ([1521685729654272, 34998771781744128, 34998670879676928,
    34998771782055468, 1521786632329728, 1521685729965612, 1521786632032812, 34998670879380012], (n
    (n (n (n l 1521685729654272 0 l) 1521685729965612 5 l) 1521786632032812 6 (n l 1521786632329728
    4 l)) 34998670879380012 7 (n (n l 34998670879676928 2 l) 34998771781744128 1 (n l
    34998771782055468 3 l))))
def codes0_49 : List Nat × Tree := ([1521685729654272, 34998771782048256, 34998771781744128,
    34998670879676940, 1521685729958400, 1521786632025612, 1521786632329740, 34998670879372812], (n
    (n (n (n l 1521685729654272 0 l) 1521685729958400 4 l) 1521786632025612 5 (n l 1521786632329740
    6 l)) 34998670879372812 7 (n (n l 34998670879676940 3 l) 34998771781744128 2 (n l
    34998771782048256 1 l))))
def codes0_50 : List Nat × Tree := ([1521685729654272, 34998771781744128, 34998670879676928,
    34998771782055456, 1521786632329728, 1521685729965600, 1521786632032800, 34998670879380000], (n
    (n (n (n l 1521685729654272 0 l) 1521685729965600 5 l) 1521786632032800 6 (n l 1521786632329728
    4 l)) 34998670879380000 7 (n (n l 34998670879676928 2 l) 34998771781744128 1 (n l
    34998771782055456 3 l))))
def codes0_51 : List Nat × Tree := ([1521685729654272, 34998771782048256, 34998771781751040,
    34998670879676928, 1521685729965312, 1521786632025600, 1521786632336640, 34998670879379712], (n
    (n (n (n l 1521685729654272 0 l) 1521685729965312 4 l) 1521786632025600 5 (n l 1521786632336640
    6 l)) 34998670879379712 7 (n (n l 34998670879676928 3 l) 34998771781751040 2 (n l
    34998771782048256 1 l))))
def codes0_52 : List Nat × Tree := ([1521685729654272, 34998771782048256, 34998771781751040,
    34998670879684140, 1521685729965312, 1521786632032812, 1521786632330028, 34998670879373100], (n
    (n (n (n l 1521685729654272 0 l) 1521685729965312 4 l) 1521786632032812 5 (n l 1521786632330028
    6 l)) 34998670879373100 7 (n (n l 34998670879684140 3 l) 34998771781751040 2 (n l
    34998771782048256 1 l))))
def codes0_53 : List Nat × Tree := ([1521685729654272, 34998771782048256, 34998771781751052,
    34998670879683852, 1521685729965324, 1521786632032524, 1521786632329728, 34998670879372800], (n
    (n (n (n l 1521685729654272 0 l) 1521685729965324 4 l) 1521786632032524 5 (n l 1521786632329728
    6 l)) 34998670879372800 7 (n (n l 34998670879683852 3 l) 34998771781751052 2 (n l
    34998771782048256 1 l))))
def codes0_54 : List Nat × Tree := ([1521685729654272, 34998771782048256, 34998771781751040,
    34998670879676940, 1521685729965312, 1521786632025612, 1521786632336652, 34998670879379724], (n
    (n (n (n l 1521685729654272 0 l) 1521685729965312 4 l) 1521786632025612 5 (n l 1521786632336652
    6 l)) 34998670879379724 7 (n (n l 34998670879676940 3 l) 34998771781751040 2 (n l
    34998771782048256 1 l))))
def codes0_55 : List Nat × Tree := ([1521685729654272, 34998771782048256, 34998771781744128,
    34998670879684128, 1521685729958400, 1521786632032800, 1521786632336928, 34998670879380000], (n
    (n (n (n l 1521685729654272 0 l) 1521685729958400 4 l) 1521786632032800 5 (n l 1521786632336928
    6 l)) 34998670879380000 7 (n (n l 34998670879684128 3 l) 34998771781744128 2 (n l
    34998771782048256 1 l))))
def codes0_56 : List Nat × Tree := ([1521685729654272, 34998771782048256, 34998771781751328,
    34998670879677228, 1521685729965600, 1521786632025900, 1521786632336652, 34998670879379724], (n
    (n (n (n l 1521685729654272 0 l) 1521685729965600 4 l) 1521786632025900 5 (n l 1521786632336652
    6 l)) 34998670879379724 7 (n (n l 34998670879677228 3 l) 34998771781751328 2 (n l
    34998771782048256 1 l))))
def codes0_57 : List Nat × Tree := ([1521685729654272, 34998771782048256, 34998771781744140,
    34998670879677228, 1521685729958412, 1521786632025900, 1521786632330016, 34998670879373088], (n
    (n (n (n l 1521685729654272 0 l) 1521685729958412 4 l) 1521786632025900 5 (n l 1521786632330016
    6 l)) 34998670879373088 7 (n (n l 34998670879677228 3 l) 34998771781744140 2 (n l
    34998771782048256 1 l))))
def codes0_58 : List Nat × Tree := ([1521685729654272, 34998771782048256, 34998771781744128,
    34998670879684140, 1521685729958400, 1521786632032812, 1521786632336940, 34998670879380012], (n
    (n (n (n l 1521685729654272 0 l) 1521685729958400 4 l) 1521786632032812 5 (n l 1521786632336940
    6 l)) 34998670879380012 7 (n (n l 34998670879684140 3 l) 34998771781744128 2 (n l
    34998771782048256 1 l))))
def codes0_59 : List Nat × Tree := ([1521685729654272, 34998771781744128, 34998670879684128,
    34998771782055456, 1521786632336928, 1521685729965600, 1521786632025600, 34998670879372800], (n
    (n (n (n l 1521685729654272 0 l) 1521685729965600 5 l) 1521786632025600 6 (n l 1521786632336928
    4 l)) 34998670879372800 7 (n (n l 34998670879684128 2 l) 34998771781744128 1 (n l
    34998771782055456 3 l))))
def codes0_60 : List Nat × Tree := ([1521685729654272, 34998771782048256, 34998771781751340,
    34998670879676940, 1521685729965612, 1521786632025612, 1521786632336928, 34998670879380000], (n
    (n (n (n l 1521685729654272 0 l) 1521685729965612 4 l) 1521786632025612 5 (n l 1521786632336928
    6 l)) 34998670879380000 7 (n (n l 34998670879676940 3 l) 34998771781751340 2 (n l
    34998771782048256 1 l))))
def codes0_61 : List Nat × Tree := ([1521685729654272, 34998771782048256, 34998771781751052,
    34998670879677228, 1521685729965324, 1521786632025900, 1521786632336928, 34998670879380000], (n
    (n (n (n l 1521685729654272 0 l) 1521685729965324 4 l) 1521786632025900 5 (n l 1521786632336928
    6 l)) 34998670879380000 7 (n (n l 34998670879677228 3 l) 34998771781751052 2 (n l
    34998771782048256 1 l))))
def codes0_62 : List Nat × Tree := ([1521685729654272, 34998771782048256, 34998771781751052,
    34998670879677216, 1521685729965324, 1521786632025888, 1521786632336940, 34998670879380012], (n
    (n (n (n l 1521685729654272 0 l) 1521685729965324 4 l) 1521786632025888 5 (n l 1521786632336940
    6 l)) 34998670879380012 7 (n (n l 34998670879677216 3 l) 34998771781751052 2 (n l
    34998771782048256 1 l))))
def codes0_63 : List Nat × Tree := ([1521685729654272, 34998771782048256, 1521685729661472,
    34998771781744140, 34998670879676940, 34998771782055456, 1521685729958412, 1521786632025612,
    34998771781751340, 34998670879684140, 1521685729965612, 1521786632032812, 1521786632329728,
    34998670879372800, 1521786632336928, 34998670879380000], (n (n (n (n (n l 1521685729654272 0 l)
    1521685729661472 2 l) 1521685729958412 6 (n l 1521685729965612 10 l)) 1521786632025612 7 (n (n l
    1521786632032812 11 l) 1521786632329728 12 (n l 1521786632336928 14 l))) 34998670879372800 13 (n
    (n (n l 34998670879380000 15 l) 34998670879676940 4 (n l 34998670879684140 9 l))
    34998771781744140 3 (n (n l 34998771781751340 8 l) 34998771782048256 1 (n l 34998771782055456 5
    l)))))
def codes0_64 : List Nat × Tree := ([1521685729654272, 34998771782048256, 1521685729661472,
    34998771781744428, 34998670879677228, 34998771782055456, 1521685729958700, 1521786632025900,
    34998771781751052, 34998670879683852, 1521685729965324, 1521786632032524, 1521786632329728,
    34998670879372800, 1521786632336928, 34998670879380000], (n (n (n (n (n l 1521685729654272 0 l)
    1521685729661472 2 l) 1521685729958700 6 (n l 1521685729965324 10 l)) 1521786632025900 7 (n (n l
    1521786632032524 11 l) 1521786632329728 12 (n l 1521786632336928 14 l))) 34998670879372800 13 (n
    (n (n l 34998670879380000 15 l) 34998670879677228 4 (n l 34998670879683852 9 l))
    34998771781744428 3 (n (n l 34998771781751052 8 l) 34998771782048256 1 (n l 34998771782055456 5
    l)))))
def codes0_65 : List Nat × Tree := ([1521685729654272, 34998771782048256, 1521685729661472,
    34998771781744128, 34998670879676928, 34998771782055456, 1521685729958400, 1521786632025600,
    34998771781751328, 34998670879684128, 1521685729965600, 1521786632032800, 1521786632329728,
    34998670879372800, 1521786632336928, 34998670879380000], (n (n (n (n (n l 1521685729654272 0 l)
    1521685729661472 2 l) 1521685729958400 6 (n l 1521685729965600 10 l)) 1521786632025600 7 (n (n l
    1521786632032800 11 l) 1521786632329728 12 (n l 1521786632336928 14 l))) 34998670879372800 13 (n
    (n (n l 34998670879380000 15 l) 34998670879676928 4 (n l 34998670879684128 9 l))
    34998771781744128 3 (n (n l 34998771781751328 8 l) 34998771782048256 1 (n l 34998771782055456 5
    l)))))
def codes0_66 : List Nat × Tree := ([1521685729654272, 34998771782048256, 1521685729661472,
    34998771781744128, 34998670879676940, 34998771782055456, 1521685729958400, 1521786632025612,
    34998771781751328, 34998670879684140, 1521685729965600, 1521786632032812, 1521786632329740,
    34998670879372812, 1521786632336940, 34998670879380012], (n (n (n (n (n l 1521685729654272 0 l)
    1521685729661472 2 l) 1521685729958400 6 (n l 1521685729965600 10 l)) 1521786632025612 7 (n (n l
    1521786632032812 11 l) 1521786632329740 12 (n l 1521786632336940 14 l))) 34998670879372812 13 (n
    (n (n l 34998670879380012 15 l) 34998670879676940 4 (n l 34998670879684140 9 l))
    34998771781744128 3 (n (n l 34998771781751328 8 l) 34998771782048256 1 (n l 34998771782055456 5
    l)))))
def codes0_67 : List Nat × Tree := ([1521685729654272, 34998771782048256, 1521685729661472,
    34998771781744416, 34998670879677216, 34998771782055456, 1521685729958688, 1521786632025888,
    34998771781751040, 34998670879683840, 1521685729965312, 1521786632032512, 1521786632329728,
    34998670879372800, 1521786632336928, 34998670879380000], (n (n (n (n (n l 1521685729654272 0 l)
    1521685729661472 2 l) 1521685729958688 6 (n l 1521685729965312 10 l)) 1521786632025888 7 (n (n l
    1521786632032512 11 l) 1521786632329728 12 (n l 1521786632336928 14 l))) 34998670879372800 13 (n
    (n (n l 34998670879380000 15 l) 34998670879677216 4 (n l 34998670879683840 9 l))
    34998771781744416 3 (n (n l 34998771781751040 8 l) 34998771782048256 1 (n l 34998771782055456 5
    l)))))
def codes0_68 : List Nat × Tree := ([1521685729654272, 1521685729661472, 34998771781751328,
    34998670879676928, 34998771782048556, 34998771781744128, 34998670879684128, 34998771782055180,
    1521786632336928, 1521685729965324, 1521786632329728, 1521685729958700, 1521786632025900,
    1521786632032524, 34998670879379724, 34998670879373100], (n (n (n (n (n l 1521685729654272 0 l)
    1521685729661472 1 l) 1521685729958700 11 (n l 1521685729965324 9 l)) 1521786632025900 12 (n (n
    l 1521786632032524 13 l) 1521786632329728 10 (n l 1521786632336928 8 l))) 34998670879373100 15
    (n (n (n l 34998670879379724 14 l) 34998670879676928 3 (n l 34998670879684128 6 l))
    34998771781744128 5 (n (n l 34998771781751328 2 l) 34998771782048556 4 (n l 34998771782055180 7
    l)))))
def codes0_69 : List Nat × Tree := ([1521685729654272, 34998771782048256, 1521685729654572,
    1521685729661196, 34998771781744128, 34998670879676928, 34998771782048556, 34998771782055180,
    1521685729958400, 1521786632025600, 1521685729661472, 34998771781744428, 34998670879677228,
    34998771782055456, 1521685729958700, 1521786632025900, 34998771781751052, 34998670879683852,
    1521685729965324, 1521786632032524, 34998771781751328, 34998670879684128, 1521685729965600,
    1521786632032800, 1521786632329728, 34998670879372800, 1521786632330028, 34998670879373100,
    1521786632336652, 34998670879379724, 1521786632336928, 34998670879380000], (n (n (n (n (n (n l
    1521685729654272 0 l) 1521685729654572 2 l) 1521685729661196 3 (n l 1521685729661472 10 l))
    1521685729958400 8 (n (n l 1521685729958700 14 l) 1521685729965324 18 (n l 1521685729965600 22
    l))) 1521786632025600 9 (n (n (n l 1521786632025900 15 l) 1521786632032524 19 (n l
    1521786632032800 23 l)) 1521786632329728 24 (n (n l 1521786632330028 26 l) 1521786632336652 28
    (n l 1521786632336928 30 l)))) 34998670879372800 25 (n (n (n (n l 34998670879373100 27 l)
    34998670879379724 29 (n l 34998670879380000 31 l)) 34998670879676928 5 (n (n l 34998670879677228
    12 l) 34998670879683852 17 (n l 34998670879684128 21 l))) 34998771781744128 4 (n (n (n l
    34998771781744428 11 l) 34998771781751052 16 (n l 34998771781751328 20 l)) 34998771782048256 1
    (n (n l 34998771782048556 6 l) 34998771782055180 7 (n l 34998771782055456 13 l))))))
def codes0_70 : List Nat × Tree := ([1521685729654272, 1521685729654572, 1521685729661196,
    34998771781744128, 34998670879676928, 34998771782051862, 1521685729661472, 34998771781744428,
    34998670879677228, 34998771782052162, 34998771781751052, 34998670879683852, 34998771782058786,
    34998771781751328, 34998670879684128, 34998771782059062, 1521786632329728, 1521685729969206,
    1521786632330028, 1521685729968930, 1521786632336652, 1521685729962306, 1521786632336928,
    1521685729962006, 1521786632036130, 1521786632036406, 1521786632029206, 1521786632029506,
    34998670879376706, 34998670879376406, 34998670879383606, 34998670879383330], (n (n (n (n (n (n l
    1521685729654272 0 l) 1521685729654572 1 l) 1521685729661196 2 (n l 1521685729661472 6 l))
    1521685729962006 23 (n (n l 1521685729962306 21 l) 1521685729968930 19 (n l 1521685729969206 17
    l))) 1521786632029206 26 (n (n (n l 1521786632029506 27 l) 1521786632036130 24 (n l
    1521786632036406 25 l)) 1521786632329728 16 (n (n l 1521786632330028 18 l) 1521786632336652 20
    (n l 1521786632336928 22 l)))) 34998670879376406 29 (n (n (n (n l 34998670879376706 28 l)
    34998670879383330 31 (n l 34998670879383606 30 l)) 34998670879676928 4 (n (n l 34998670879677228
    8 l) 34998670879683852 11 (n l 34998670879684128 14 l))) 34998771781744128 3 (n (n (n l
    34998771781744428 7 l) 34998771781751052 10 (n l 34998771781751328 13 l)) 34998771782051862 5 (n
    (n l 34998771782052162 9 l) 34998771782058786 12 (n l 34998771782059062 15 l))))))
def codes0_71 : List Nat × Tree := ([1521685729654272, 34998771782048256, 1521685729661484,
    34998771781744128, 34998670879676928, 34998771782055468, 1521685729958400, 1521786632025600,
    34998771781751340, 34998670879684140, 1521685729965612, 1521786632032812, 1521786632329728,
    34998670879372800, 1521786632336940, 34998670879380012], (n (n (n (n (n l 1521685729654272 0 l)
    1521685729661484 2 l) 1521685729958400 6 (n l 1521685729965612 10 l)) 1521786632025600 7 (n (n l
    1521786632032812 11 l) 1521786632329728 12 (n l 1521786632336940 14 l))) 34998670879372800 13 (n
    (n (n l 34998670879380012 15 l) 34998670879676928 4 (n l 34998670879684140 9 l))
    34998771781744128 3 (n (n l 34998771781751340 8 l) 34998771782048256 1 (n l 34998771782055468 5
    l)))))
def codes0_72 : List Nat × Tree := ([1521685729654272, 34998771782048256, 1521685729661484,
    34998771781744128, 34998670879684128, 34998771782055468, 1521685729958400, 1521786632032800,
    34998771781751340, 34998670879676940, 1521685729965612, 1521786632025612, 1521786632336928,
    34998670879380000, 1521786632329740, 34998670879372812], (n (n (n (n (n l 1521685729654272 0 l)
    1521685729661484 2 l) 1521685729958400 6 (n l 1521685729965612 10 l)) 1521786632025612 11 (n (n
    l 1521786632032800 7 l) 1521786632329740 14 (n l 1521786632336928 12 l))) 34998670879372812 15
    (n (n (n l 34998670879380000 13 l) 34998670879676940 9 (n l 34998670879684128 4 l))
    34998771781744128 3 (n (n l 34998771781751340 8 l) 34998771782048256 1 (n l 34998771782055468 5
    l)))))
def codes0_73 : List Nat × Tree := ([1521685729654272, 34998771782048256, 1521685729661484,
    34998771781751052, 34998670879677228, 34998771782055468, 1521685729965324, 1521786632025900,
    34998771781744416, 34998670879683840, 1521685729958688, 1521786632032512, 1521786632336928,
    34998670879380000, 1521786632329740, 34998670879372812], (n (n (n (n (n l 1521685729654272 0 l)
    1521685729661484 2 l) 1521685729958688 10 (n l 1521685729965324 6 l)) 1521786632025900 7 (n (n l
    1521786632032512 11 l) 1521786632329740 14 (n l 1521786632336928 12 l))) 34998670879372812 15 (n
    (n (n l 34998670879380000 13 l) 34998670879677228 4 (n l 34998670879683840 9 l))
    34998771781744416 8 (n (n l 34998771781751052 3 l) 34998771782048256 1 (n l 34998771782055468 5
    l)))))
def codes0_74 : List Nat × Tree := ([1521685729654272, 34998771782048256, 1521685729661484,
    34998771781744416, 34998670879677216, 34998771782055468, 1521685729958688, 1521786632025888,
    34998771781751052, 34998670879683852, 1521685729965324, 1521786632032524, 1521786632329728,
    34998670879372800, 1521786632336940, 34998670879380012], (n (n (n (n (n l 1521685729654272 0 l)
    1521685729661484 2 l) 1521685729958688 6 (n l 1521685729965324 10 l)) 1521786632025888 7 (n (n l
    1521786632032524 11 l) 1521786632329728 12 (n l 1521786632336940 14 l))) 34998670879372800 13 (n
    (n (n l 34998670879380012 15 l) 34998670879677216 4 (n l 34998670879683852 9 l))
    34998771781744416 3 (n (n l 34998771781751052 8 l) 34998771782048256 1 (n l 34998771782055468 5
    l)))))
def codes0_75 : List Nat × Tree := ([1521685729654272, 34998771781744128, 1458387837531648,
    65935113205248], (n (n (n l 65935113205248 3 l) 1458387837531648 2 l) 1521685729654272 0 (n l
    34998771781744128 1 l)))
def codes0_76 : List Nat × Tree := ([1521685729654272, 34998771781744140, 1458387837531654,
    65935113205266], (n (n (n l 65935113205266 3 l) 1458387837531654 2 l) 1521685729654272 0 (n l
    34998771781744140 1 l)))
def codes0_77 : List Nat × Tree := ([1521685729654272, 34998771781744128, 1458387837531660,
    65935113205260], (n (n (n l 65935113205260 3 l) 1458387837531660 2 l) 1521685729654272 0 (n l
    34998771781744128 1 l)))
def codes0_78 : List Nat × Tree := ([1521685729654272, 34998771781744140, 1458387837531666,
    65935113205254], (n (n (n l 65935113205254 3 l) 1458387837531666 2 l) 1521685729654272 0 (n l
    34998771781744140 1 l)))
def codes0_79 : List Nat × Tree := ([1521685729654272, 1521685729661484, 34998771781744128,
    1458387837531648, 34998771781751340, 1458387837538860, 65935113205248, 65935113212460], (n (n (n
    (n l 65935113205248 6 l) 65935113212460 7 l) 1458387837531648 3 (n l 1458387837538860 5 l))
    1521685729654272 0 (n (n l 1521685729661484 1 l) 34998771781744128 2 (n l 34998771781751340 4
    l))))
def codes0_80 : List Nat × Tree := ([1521685729654272, 1521685729661484, 34998771781751340,
    1458387837531942, 34998771781744128, 1458387837538578, 65935113212178, 65935113205542], (n (n (n
    (n l 65935113205542 7 l) 65935113212178 6 l) 1458387837531942 3 (n l 1458387837538578 5 l))
    1521685729654272 0 (n (n l 1521685729661484 1 l) 34998771781744128 4 (n l 34998771781751340 2
    l))))
def codes0_81 : List Nat × Tree := ([1521685729654272, 34998771781744128, 65935113509376,
    1458387837835776], (n (n (n l 65935113509376 2 l) 1458387837835776 3 l) 1521685729654272 0 (n l
    34998771781744128 1 l)))
def codes0_82 : List Nat × Tree := ([1521685729654272, 1521685729661484, 34998771781744128,
    65935113509376, 34998771781751340, 65935113516588, 1458387837835776, 1458387837842988], (n (n (n
    (n l 65935113509376 3 l) 65935113516588 5 l) 1458387837835776 6 (n l 1458387837842988 7 l))
    1521685729654272 0 (n (n l 1521685729661484 1 l) 34998771781744128 2 (n l 34998771781751340 4
    l))))
def codes0_83 : List Nat × Tree := ([1521685729654272, 34998771782048256, 34998771781744128,
    1458387837531648, 1521685729958400, 65935113509376, 65935113205248, 1458387837835776], (n (n (n
    (n l 65935113205248 6 l) 65935113509376 5 l) 1458387837531648 3 (n l 1458387837835776 7 l))
    1521685729654272 0 (n (n l 1521685729958400 4 l) 34998771781744128 2 (n l 34998771782048256 1
    l))))
def codes0_84 : List Nat × Tree := ([1521685729654272, 34998771782048256, 34998771781744128,
    1458387837531660, 1521685729958400, 65935113509388, 65935113205260, 1458387837835788], (n (n (n
    (n l 65935113205260 6 l) 65935113509388 5 l) 1458387837531660 3 (n l 1458387837835788 7 l))
    1521685729654272 0 (n (n l 1521685729958400 4 l) 34998771781744128 2 (n l 34998771782048256 1
    l))))
def codes0_85 : List Nat × Tree := ([1521685729654272, 34998771781744128, 1458387837538848,
    34998771782055456, 65935113212448, 1521685729965600, 65935113509376, 1458387837835776], (n (n (n
    (n l 65935113212448 4 l) 65935113509376 6 l) 1458387837538848 2 (n l 1458387837835776 7 l))
    1521685729654272 0 (n (n l 1521685729965600 5 l) 34998771781744128 1 (n l 34998771782055456 3
    l))))
def codes0_86 : List Nat × Tree := ([1521685729654272, 34998771781744128, 1458387837538860,
    34998771782055468, 65935113212460, 1521685729965612, 65935113509376, 1458387837835776], (n (n (n
    (n l 65935113212460 4 l) 65935113509376 6 l) 1458387837538860 2 (n l 1458387837835776 7 l))
    1521685729654272 0 (n (n l 1521685729965612 5 l) 34998771781744128 1 (n l 34998771782055468 3
    l))))
def codes0_87 : List Nat × Tree := ([1521685729654272, 34998771782048256, 1521685729661484,
    34998771781744128, 1458387837531648, 34998771782055468, 1521685729958400, 65935113509376,
    34998771781751340, 1458387837538860, 1521685729965612, 65935113516588, 65935113205248,
    1458387837835776, 65935113212460, 1458387837842988], (n (n (n (n (n l 65935113205248 12 l)
    65935113212460 14 l) 65935113509376 7 (n l 65935113516588 11 l)) 1458387837531648 4 (n (n l
    1458387837538860 9 l) 1458387837835776 13 (n l 1458387837842988 15 l))) 1521685729654272 0 (n (n
    (n l 1521685729661484 2 l) 1521685729958400 6 (n l 1521685729965612 10 l)) 34998771781744128 3
    (n (n l 34998771781751340 8 l) 34998771782048256 1 (n l 34998771782055468 5 l)))))
def codes0_88 : List Nat × Tree := ([1521685729654272, 1521685729661484, 34998771781751340,
    1458387837531942, 34998771782048550, 34998771781744128, 1458387837538578, 34998771782055186,
    65935113212178, 1521685729965330, 65935113205542, 1521685729958694, 65935113516588,
    65935113509376, 1458387837835776, 1458387837842988], (n (n (n (n (n l 65935113205542 10 l)
    65935113212178 8 l) 65935113509376 13 (n l 65935113516588 12 l)) 1458387837531942 3 (n (n l
    1458387837538578 6 l) 1458387837835776 14 (n l 1458387837842988 15 l))) 1521685729654272 0 (n (n
    (n l 1521685729661484 1 l) 1521685729958694 11 (n l 1521685729965330 9 l)) 34998771781744128 5
    (n (n l 34998771781751340 2 l) 34998771782048550 4 (n l 34998771782055186 7 l)))))
def codes0_89 : List Nat × Tree := ([1521685729654272, 34998771781744128, 1458387837531648,
    34998670879676928, 65935113205248, 1521786632329728, 1460809494747648, 63513456597504], (n (n (n
    (n l 63513456597504 7 l) 65935113205248 4 l) 1458387837531648 2 (n l 1460809494747648 6 l))
    1521685729654272 0 (n (n l 1521786632329728 5 l) 34998670879676928 3 (n l 34998771781744128 1
    l))))
def codes0_90 : List Nat × Tree := ([1521685729654272, 34998771781744128, 1458387837538848,
    34998670879684128, 65935113212448, 1521786632336928, 1460809494747648, 63513456597504], (n (n (n
    (n l 63513456597504 7 l) 65935113212448 4 l) 1458387837538848 2 (n l 1460809494747648 6 l))
    1521685729654272 0 (n (n l 1521786632336928 5 l) 34998670879684128 3 (n l 34998771781744128 1
    l))))
def codes0_91 : List Nat × Tree := ([1521685729654272, 34998771781744140, 1458387837531654,
    34998670879676928, 65935113205266, 1521786632329740, 1460809494747654, 63513456597522], (n (n (n
    (n l 63513456597522 7 l) 65935113205266 4 l) 1458387837531654 2 (n l 1460809494747654 6 l))
    1521685729654272 0 (n (n l 1521786632329740 5 l) 34998670879676928 3 (n l 34998771781744140 1
    l))))
def codes0_92 : List Nat × Tree := ([1521685729654272, 34998771781744140, 1458387837538854,
    34998670879684134, 65935113212466, 1521786632336946, 1460809494747660, 63513456597504], (n (n (n
    (n l 63513456597504 7 l) 65935113212466 4 l) 1458387837538854 2 (n l 1460809494747660 6 l))
    1521685729654272 0 (n (n l 1521786632336946 5 l) 34998670879684134 3 (n l 34998771781744140 1
    l))))
def codes0_93 : List Nat × Tree := ([1521685729654272, 34998771781744128, 1458387837531660,
    34998670879676928, 65935113205260, 1521786632329728, 1460809494747660, 63513456597516], (n (n (n
    (n l 63513456597516 7 l) 65935113205260 4 l) 1458387837531660 2 (n l 1460809494747660 6 l))
    1521685729654272 0 (n (n l 1521786632329728 5 l) 34998670879676928 3 (n l 34998771781744128 1
    l))))
def codes0_94 : List Nat × Tree := ([1521685729654272, 34998771781744128, 1458387837538860,
    34998670879684140, 65935113212460, 1521786632336940, 1460809494747648, 63513456597504], (n (n (n
    (n l 63513456597504 7 l) 65935113212460 4 l) 1458387837538860 2 (n l 1460809494747648 6 l))
    1521685729654272 0 (n (n l 1521786632336940 5 l) 34998670879684140 3 (n l 34998771781744128 1
    l))))
def codes0_95 : List Nat × Tree := ([1521685729654272, 34998771781744140, 1458387837531666,
    34998670879676928, 65935113205254, 1521786632329740, 1460809494747666, 63513456597510], (n (n (n
    (n l 63513456597510 7 l) 65935113205254 4 l) 1458387837531666 2 (n l 1460809494747666 6 l))
    1521685729654272 0 (n (n l 1521786632329740 5 l) 34998670879676928 3 (n l 34998771781744140 1
    l))))
def codes0_96 : List Nat × Tree := ([1521685729654272, 34998771781744140, 1458387837538866,
    34998670879684146, 65935113212454, 1521786632336934, 1460809494747660, 63513456597504], (n (n (n
    (n l 63513456597504 7 l) 65935113212454 4 l) 1458387837538866 2 (n l 1460809494747660 6 l))
    1521685729654272 0 (n (n l 1521786632336934 5 l) 34998670879684146 3 (n l 34998771781744140 1
    l))))
def codes0_97 : List Nat × Tree := ([1521685729654272, 1521685729661484, 34998771781744128,
    1458387837531648, 34998670879676928, 34998771781751340, 1458387837538860, 34998670879684140,
    65935113205248, 1521786632329728, 65935113212460, 1521786632336940, 1460809494747648,
    1460809494754860, 63513456597504, 63513456604716], (n (n (n (n (n l 63513456597504 14 l)
    63513456604716 15 l) 65935113205248 8 (n l 65935113212460 10 l)) 1458387837531648 3 (n (n l
    1458387837538860 6 l) 1460809494747648 12 (n l 1460809494754860 13 l))) 1521685729654272 0 (n (n
    (n l 1521685729661484 1 l) 1521786632329728 9 (n l 1521786632336940 11 l)) 34998670879676928 4
    (n (n l 34998670879684140 7 l) 34998771781744128 2 (n l 34998771781751340 5 l)))))
def codes0_98 : List Nat × Tree := ([1521685729654272, 1521685729661484, 34998771781751340,
    1458387837531942, 34998670879683858, 34998771781744128, 1458387837538578, 34998670879677222,
    65935113212178, 1521786632330022, 65935113205542, 1521786632336658, 1460809494747648,
    1460809494754860, 63513456604716, 63513456597504], (n (n (n (n (n l 63513456597504 15 l)
    63513456604716 14 l) 65935113205542 10 (n l 65935113212178 8 l)) 1458387837531942 3 (n (n l
    1458387837538578 6 l) 1460809494747648 12 (n l 1460809494754860 13 l))) 1521685729654272 0 (n (n
    (n l 1521685729661484 1 l) 1521786632330022 9 (n l 1521786632336658 11 l)) 34998670879677222 7
    (n (n l 34998670879683858 4 l) 34998771781744128 5 (n l 34998771781751340 2 l)))))
def codes0_99 : List Nat × Tree := ([1521685729654272, 34998771781744128, 1458387837531648,
    1521786632025600, 65935113205248, 34998670879372800, 63513456293376, 1460809494443520], (n (n (n
    (n l 63513456293376 6 l) 65935113205248 4 l) 1458387837531648 2 (n l 1460809494443520 7 l))
    1521685729654272 0 (n (n l 1521786632025600 3 l) 34998670879372800 5 (n l 34998771781744128 1
    l))))
def codes0_100 : List Nat × Tree := ([1521685729654272, 34998771781744128, 1458387837531648,
    1521786632032800, 65935113205248, 34998670879380000, 63513456300576, 1460809494450720], (n (n (n
    (n l 63513456300576 6 l) 65935113205248 4 l) 1458387837531648 2 (n l 1460809494450720 7 l))
    1521685729654272 0 (n (n l 1521786632032800 3 l) 34998670879380000 5 (n l 34998771781744128 1
    l))))
def codes0_101 : List Nat × Tree := ([1521685729654272, 34998771781744128, 1458387837531660,
    1521786632025612, 65935113205260, 34998670879372812, 63513456293376, 1460809494443520], (n (n (n
    (n l 63513456293376 6 l) 65935113205260 4 l) 1458387837531660 2 (n l 1460809494443520 7 l))
    1521685729654272 0 (n (n l 1521786632025612 3 l) 34998670879372812 5 (n l 34998771781744128 1
    l))))
def codes0_102 : List Nat × Tree := ([1521685729654272, 34998771781744128, 1458387837538860,
    1521786632032812, 65935113212460, 34998670879380012, 63513456293376, 1460809494443520], (n (n (n
    (n l 63513456293376 6 l) 65935113212460 4 l) 1458387837538860 2 (n l 1460809494443520 7 l))
    1521685729654272 0 (n (n l 1521786632032812 3 l) 34998670879380012 5 (n l 34998771781744128 1
    l))))
def codes0_103 : List Nat × Tree := ([1521685729654272, 34998771781744128, 1458387837531648,
    1521786632025612, 65935113205248, 34998670879372812, 63513456293388, 1460809494443532], (n (n (n
    (n l 63513456293388 6 l) 65935113205248 4 l) 1458387837531648 2 (n l 1460809494443532 7 l))
    1521685729654272 0 (n (n l 1521786632025612 3 l) 34998670879372812 5 (n l 34998771781744128 1
    l))))
def codes0_104 : List Nat × Tree := ([1521685729654272, 34998771781744128, 1458387837531648,
    1521786632032812, 65935113205248, 34998670879380012, 63513456300588, 1460809494450732], (n (n (n
    (n l 63513456300588 6 l) 65935113205248 4 l) 1458387837531648 2 (n l 1460809494450732 7 l))
    1521685729654272 0 (n (n l 1521786632032812 3 l) 34998670879380012 5 (n l 34998771781744128 1
    l))))
def codes0_105 : List Nat × Tree := ([1521685729654272, 34998771781744128, 1458387837531660,
    1521786632025600, 65935113205260, 34998670879372800, 63513456293388, 1460809494443532], (n (n (n
    (n l 63513456293388 6 l) 65935113205260 4 l) 1458387837531660 2 (n l 1460809494443532 7 l))
    1521685729654272 0 (n (n l 1521786632025600 3 l) 34998670879372800 5 (n l 34998771781744128 1
    l))))
def codes0_106 : List Nat × Tree := ([1521685729654272, 34998771781744128, 1458387837531660,
    1521786632032800, 65935113205260, 34998670879380000, 63513456300588, 1460809494450732], (n (n (n
    (n l 63513456300588 6 l) 65935113205260 4 l) 1458387837531660 2 (n l 1460809494450732 7 l))
    1521685729654272 0 (n (n l 1521786632032800 3 l) 34998670879380000 5 (n l 34998771781744128 1
    l))))
def codes0_107 : List Nat × Tree := ([1521685729654272, 1521685729661484, 34998771781744128,
    1458387837531648, 1521786632025600, 34998771781751340, 1458387837538860, 1521786632032812,
    65935113205248, 34998670879372800, 65935113212460, 34998670879380012, 63513456293376,
    63513456300588, 1460809494443520, 1460809494450732], (n (n (n (n (n l 63513456293376 12 l)
    63513456300588 13 l) 65935113205248 8 (n l 65935113212460 10 l)) 1458387837531648 3 (n (n l
    1458387837538860 6 l) 1460809494443520 14 (n l 1460809494450732 15 l))) 1521685729654272 0 (n (n
    (n l 1521685729661484 1 l) 1521786632025600 4 (n l 1521786632032812 7 l)) 34998670879372800 9 (n
    (n l 34998670879380012 11 l) 34998771781744128 2 (n l 34998771781751340 5 l)))))
def codes0_108 : List Nat × Tree := ([1521685729654272, 1521685729661484, 34998771781744128,
    1458387837531648, 1521786632025612, 34998771781751340, 1458387837538860, 1521786632032800,
    65935113205248, 34998670879372812, 65935113212460, 34998670879380000, 63513456293388,
    63513456300576, 1460809494443532, 1460809494450720], (n (n (n (n (n l 63513456293388 12 l)
    63513456300576 13 l) 65935113205248 8 (n l 65935113212460 10 l)) 1458387837531648 3 (n (n l
    1458387837538860 6 l) 1460809494443532 14 (n l 1460809494450720 15 l))) 1521685729654272 0 (n (n
    (n l 1521685729661484 1 l) 1521786632025612 4 (n l 1521786632032800 7 l)) 34998670879372812 9 (n
    (n l 34998670879380000 11 l) 34998771781744128 2 (n l 34998771781751340 5 l)))))
def codes0_109 : List Nat × Tree := ([1521685729654272, 1521685729661484, 34998771781751340,
    1458387837531942, 1521786632025600, 34998771781744128, 1458387837538578, 1521786632032812,
    65935113212178, 34998670879380012, 65935113205542, 34998670879372800, 63513456293670,
    63513456300306, 1460809494450450, 1460809494443814], (n (n (n (n (n l 63513456293670 12 l)
    63513456300306 13 l) 65935113205542 10 (n l 65935113212178 8 l)) 1458387837531942 3 (n (n l
    1458387837538578 6 l) 1460809494443814 15 (n l 1460809494450450 14 l))) 1521685729654272 0 (n (n
    (n l 1521685729661484 1 l) 1521786632025600 4 (n l 1521786632032812 7 l)) 34998670879372800 11
    (n (n l 34998670879380012 9 l) 34998771781744128 5 (n l 34998771781751340 2 l)))))
def codes0_110 : List Nat × Tree := ([1521685729654272, 1521685729661484, 34998771781751340,
    1458387837531942, 1521786632025612, 34998771781744128, 1458387837538578, 1521786632032800,
    65935113212178, 34998670879380000, 65935113205542, 34998670879372812, 63513456293682,
    63513456300294, 1460809494450438, 1460809494443826], (n (n (n (n (n l 63513456293682 12 l)
    63513456300294 13 l) 65935113205542 10 (n l 65935113212178 8 l)) 1458387837531942 3 (n (n l
    1458387837538578 6 l) 1460809494443826 15 (n l 1460809494450438 14 l))) 1521685729654272 0 (n (n
    (n l 1521685729661484 1 l) 1521786632025612 4 (n l 1521786632032800 7 l)) 34998670879372812 11
    (n (n l 34998670879380000 9 l) 34998771781744128 5 (n l 34998771781751340 2 l)))))
def codes0_111 : List Nat × Tree := ([1521685729654272, 34998771781744128, 65935113509376,
    34998670879676928, 1458387837835776, 1521786632329728, 63513456293376, 1460809494443520], (n (n
    (n (n l 63513456293376 6 l) 65935113509376 2 l) 1458387837835776 4 (n l 1460809494443520 7 l))
    1521685729654272 0 (n (n l 1521786632329728 5 l) 34998670879676928 3 (n l 34998771781744128 1
    l))))
def codes0_112 : List Nat × Tree := ([1521685729654272, 34998771781744128, 65935113509376,
    34998670879676940, 1458387837835776, 1521786632329740, 63513456293388, 1460809494443532], (n (n
    (n (n l 63513456293388 6 l) 65935113509376 2 l) 1458387837835776 4 (n l 1460809494443532 7 l))
    1521685729654272 0 (n (n l 1521786632329740 5 l) 34998670879676940 3 (n l 34998771781744128 1
    l))))
def codes0_113 : List Nat × Tree := ([1521685729654272, 34998771781744128, 65935113509376,
    34998670879684128, 1458387837835776, 1521786632336928, 63513456300576, 1460809494450720], (n (n
    (n (n l 63513456300576 6 l) 65935113509376 2 l) 1458387837835776 4 (n l 1460809494450720 7 l))
    1521685729654272 0 (n (n l 1521786632336928 5 l) 34998670879684128 3 (n l 34998771781744128 1
    l))))
def codes0_114 : List Nat × Tree := ([1521685729654272, 34998771781744128, 65935113509376,
    34998670879684140, 1458387837835776, 1521786632336940, 63513456300588, 1460809494450732], (n (n
    (n (n l 63513456300588 6 l) 65935113509376 2 l) 1458387837835776 4 (n l 1460809494450732 7 l))
    1521685729654272 0 (n (n l 1521786632336940 5 l) 34998670879684140 3 (n l 34998771781744128 1
    l))))
def codes0_115 : List Nat × Tree := ([1521685729654272, 34998771781744128, 65935113509376,
    1521786632025600, 1458387837835776, 34998670879372800, 1460809494747648, 63513456597504], (n (n
    (n (n l 63513456597504 7 l) 65935113509376 2 l) 1458387837835776 4 (n l 1460809494747648 6 l))
    1521685729654272 0 (n (n l 1521786632025600 3 l) 34998670879372800 5 (n l 34998771781744128 1
    l))))
def codes0_116 : List Nat × Tree := ([1521685729654272, 34998771781744128, 65935113509376,
    1521786632025612, 1458387837835776, 34998670879372812, 1460809494747660, 63513456597516], (n (n
    (n (n l 63513456597516 7 l) 65935113509376 2 l) 1458387837835776 4 (n l 1460809494747660 6 l))
    1521685729654272 0 (n (n l 1521786632025612 3 l) 34998670879372812 5 (n l 34998771781744128 1
    l))))
def codes0_117 : List Nat × Tree := ([1521685729654272, 34998771781744128, 65935113509376,
    1521786632032800, 1458387837835776, 34998670879380000, 1460809494754848, 63513456604704], (n (n
    (n (n l 63513456604704 7 l) 65935113509376 2 l) 1458387837835776 4 (n l 1460809494754848 6 l))
    1521685729654272 0 (n (n l 1521786632032800 3 l) 34998670879380000 5 (n l 34998771781744128 1
    l))))
def codes0_118 : List Nat × Tree := ([1521685729654272, 34998771781744128, 65935113509376,
    1521786632032812, 1458387837835776, 34998670879380012, 1460809494754860, 63513456604716], (n (n
    (n (n l 63513456604716 7 l) 65935113509376 2 l) 1458387837835776 4 (n l 1460809494754860 6 l))
    1521685729654272 0 (n (n l 1521786632032812 3 l) 34998670879380012 5 (n l 34998771781744128 1
    l))))
def codes0_119 : List Nat × Tree := ([1521685729654272, 1521685729661484, 34998771781744128,
    65935113509376, 1521786632025600, 34998771781751340, 65935113516588, 1521786632032812,
    1458387837835776, 34998670879372800, 1458387837842988, 34998670879380012, 1460809494747648,
    1460809494754860, 63513456597504, 63513456604716], (n (n (n (n (n l 63513456597504 14 l)
    63513456604716 15 l) 65935113509376 3 (n l 65935113516588 6 l)) 1458387837835776 8 (n (n l
    1458387837842988 10 l) 1460809494747648 12 (n l 1460809494754860 13 l))) 1521685729654272 0 (n
    (n (n l 1521685729661484 1 l) 1521786632025600 4 (n l 1521786632032812 7 l)) 34998670879372800 9
    (n (n l 34998670879380012 11 l) 34998771781744128 2 (n l 34998771781751340 5 l)))))
def codes0_120 : List Nat × Tree := ([1521685729654272, 1521685729661484, 34998771781744128,
    65935113509376, 1521786632025612, 34998771781751340, 65935113516588, 1521786632032800,
    1458387837835776, 34998670879372812, 1458387837842988, 34998670879380000, 1460809494747660,
    1460809494754848, 63513456597516, 63513456604704], (n (n (n (n (n l 63513456597516 14 l)
    63513456604704 15 l) 65935113509376 3 (n l 65935113516588 6 l)) 1458387837835776 8 (n (n l
    1458387837842988 10 l) 1460809494747660 12 (n l 1460809494754848 13 l))) 1521685729654272 0 (n
    (n (n l 1521685729661484 1 l) 1521786632025612 4 (n l 1521786632032800 7 l)) 34998670879372812 9
    (n (n l 34998670879380000 11 l) 34998771781744128 2 (n l 34998771781751340 5 l)))))
def codes0_121 : List Nat × Tree := ([1521685729654272, 1521685729661484, 34998771781744128,
    65935113509376, 34998670879676928, 34998771781751340, 65935113516588, 34998670879684140,
    1458387837835776, 1521786632329728, 1458387837842988, 1521786632336940, 63513456293376,
    63513456300588, 1460809494443520, 1460809494450732], (n (n (n (n (n l 63513456293376 12 l)
    63513456300588 13 l) 65935113509376 3 (n l 65935113516588 6 l)) 1458387837835776 8 (n (n l
    1458387837842988 10 l) 1460809494443520 14 (n l 1460809494450732 15 l))) 1521685729654272 0 (n
    (n (n l 1521685729661484 1 l) 1521786632329728 9 (n l 1521786632336940 11 l)) 34998670879676928
    4 (n (n l 34998670879684140 7 l) 34998771781744128 2 (n l 34998771781751340 5 l)))))
def codes0_122 : List Nat × Tree := ([1521685729654272, 1521685729661484, 34998771781744128,
    65935113509376, 34998670879683858, 34998771781751340, 65935113516588, 34998670879677222,
    1458387837835776, 1521786632336658, 1458387837842988, 1521786632330022, 63513456293670,
    63513456300306, 1460809494443814, 1460809494450450], (n (n (n (n (n l 63513456293670 12 l)
    63513456300306 13 l) 65935113509376 3 (n l 65935113516588 6 l)) 1458387837835776 8 (n (n l
    1458387837842988 10 l) 1460809494443814 14 (n l 1460809494450450 15 l))) 1521685729654272 0 (n
    (n (n l 1521685729661484 1 l) 1521786632330022 11 (n l 1521786632336658 9 l)) 34998670879677222
    7 (n (n l 34998670879683858 4 l) 34998771781744128 2 (n l 34998771781751340 5 l)))))
def codes0_123 : List Nat × Tree := ([1521685729654272, 34998771782048256, 34998771781744128,
    1458387837531648, 34998670879676928, 1521685729958400, 65935113509376, 1521786632025600,
    65935113205248, 1521786632329728, 1458387837835776, 34998670879372800, 1460809494747648,
    63513456293376, 63513456597504, 1460809494443520], (n (n (n (n (n l 63513456293376 13 l)
    63513456597504 14 l) 65935113205248 8 (n l 65935113509376 6 l)) 1458387837531648 3 (n (n l
    1458387837835776 10 l) 1460809494443520 15 (n l 1460809494747648 12 l))) 1521685729654272 0 (n
    (n (n l 1521685729958400 5 l) 1521786632025600 7 (n l 1521786632329728 9 l)) 34998670879372800
    11 (n (n l 34998670879676928 4 l) 34998771781744128 2 (n l 34998771782048256 1 l)))))
def codes0_124 : List Nat × Tree := ([1521685729654272, 34998771782048256, 34998771781744128,
    1458387837531648, 34998670879676940, 1521685729958400, 65935113509376, 1521786632025612,
    65935113205248, 1521786632329740, 1458387837835776, 34998670879372812, 1460809494747660,
    63513456293388, 63513456597516, 1460809494443532], (n (n (n (n (n l 63513456293388 13 l)
    63513456597516 14 l) 65935113205248 8 (n l 65935113509376 6 l)) 1458387837531648 3 (n (n l
    1458387837835776 10 l) 1460809494443532 15 (n l 1460809494747660 12 l))) 1521685729654272 0 (n
    (n (n l 1521685729958400 5 l) 1521786632025612 7 (n l 1521786632329740 9 l)) 34998670879372812
    11 (n (n l 34998670879676940 4 l) 34998771781744128 2 (n l 34998771782048256 1 l)))))
def codes0_125 : List Nat × Tree := ([1521685729654272, 34998771781744128, 1458387837531648,
    34998670879676928, 34998771782055456, 65935113205248, 1521786632329728, 1521685729965600,
    1460809494747648, 65935113516576, 63513456597504, 1458387837842976, 1521786632032800,
    34998670879380000, 1460809494450720, 63513456300576], (n (n (n (n (n l 63513456300576 15 l)
    63513456597504 10 l) 65935113205248 5 (n l 65935113516576 9 l)) 1458387837531648 2 (n (n l
    1458387837842976 11 l) 1460809494450720 14 (n l 1460809494747648 8 l))) 1521685729654272 0 (n (n
    (n l 1521685729965600 7 l) 1521786632032800 12 (n l 1521786632329728 6 l)) 34998670879380000 13
    (n (n l 34998670879676928 3 l) 34998771781744128 1 (n l 34998771782055456 4 l)))))
def codes0_126 : List Nat × Tree := ([1521685729654272, 34998771781744128, 1458387837531648,
    34998670879676928, 34998771782055468, 65935113205248, 1521786632329728, 1521685729965612,
    1460809494747648, 65935113516588, 63513456597504, 1458387837842988, 1521786632032812,
    34998670879380012, 1460809494450732, 63513456300588], (n (n (n (n (n l 63513456300588 15 l)
    63513456597504 10 l) 65935113205248 5 (n l 65935113516588 9 l)) 1458387837531648 2 (n (n l
    1458387837842988 11 l) 1460809494450732 14 (n l 1460809494747648 8 l))) 1521685729654272 0 (n (n
    (n l 1521685729965612 7 l) 1521786632032812 12 (n l 1521786632329728 6 l)) 34998670879380012 13
    (n (n l 34998670879676928 3 l) 34998771781744128 1 (n l 34998771782055468 4 l)))))
def codes0_127 : List Nat × Tree := ([1521685729654272, 34998771782048256, 34998771781744128,
    1458387837531648, 34998670879684128, 1521685729958400, 65935113509376, 1521786632032800,
    65935113205248, 1521786632336928, 1458387837835776, 34998670879380000, 1460809494754848,
    63513456300576, 63513456604704, 1460809494450720], (n (n (n (n (n l 63513456300576 13 l)
    63513456604704 14 l) 65935113205248 8 (n l 65935113509376 6 l)) 1458387837531648 3 (n (n l
    1458387837835776 10 l) 1460809494450720 15 (n l 1460809494754848 12 l))) 1521685729654272 0 (n
    (n (n l 1521685729958400 5 l) 1521786632032800 7 (n l 1521786632336928 9 l)) 34998670879380000
    11 (n (n l 34998670879684128 4 l) 34998771781744128 2 (n l 34998771782048256 1 l)))))
def codes0_128 : List Nat × Tree := ([1521685729654272, 34998771782048256, 34998771781744128,
    1458387837531648, 34998670879684140, 1521685729958400, 65935113509376, 1521786632032812,
    65935113205248, 1521786632336940, 1458387837835776, 34998670879380012, 1460809494754860,
    63513456300588, 63513456604716, 1460809494450732], (n (n (n (n (n l 63513456300588 13 l)
    63513456604716 14 l) 65935113205248 8 (n l 65935113509376 6 l)) 1458387837531648 3 (n (n l
    1458387837835776 10 l) 1460809494450732 15 (n l 1460809494754860 12 l))) 1521685729654272 0 (n
    (n (n l 1521685729958400 5 l) 1521786632032812 7 (n l 1521786632336940 9 l)) 34998670879380012
    11 (n (n l 34998670879684140 4 l) 34998771781744128 2 (n l 34998771782048256 1 l)))))
def codes0_129 : List Nat × Tree := ([1521685729654272, 34998771781744128, 1458387837538848,
    34998670879684128, 34998771782055456, 65935113212448, 1521786632336928, 1521685729965600,
    1460809494747648, 65935113509376, 63513456597504, 1458387837835776, 1521786632025600,
    34998670879372800, 1460809494450720, 63513456300576], (n (n (n (n (n l 63513456300576 15 l)
    63513456597504 10 l) 65935113212448 5 (n l 65935113509376 9 l)) 1458387837538848 2 (n (n l
    1458387837835776 11 l) 1460809494450720 14 (n l 1460809494747648 8 l))) 1521685729654272 0 (n (n
    (n l 1521685729965600 7 l) 1521786632025600 12 (n l 1521786632336928 6 l)) 34998670879372800 13
    (n (n l 34998670879684128 3 l) 34998771781744128 1 (n l 34998771782055456 4 l)))))
def codes0_130 : List Nat × Tree := ([1521685729654272, 34998771781744128, 1458387837538848,
    34998670879684140, 34998771782055456, 65935113212448, 1521786632336940, 1521685729965600,
    1460809494747660, 65935113509376, 63513456597516, 1458387837835776, 1521786632025612,
    34998670879372812, 1460809494450732, 63513456300588], (n (n (n (n (n l 63513456300588 15 l)
    63513456597516 10 l) 65935113212448 5 (n l 65935113509376 9 l)) 1458387837538848 2 (n (n l
    1458387837835776 11 l) 1460809494450732 14 (n l 1460809494747660 8 l))) 1521685729654272 0 (n (n
    (n l 1521685729965600 7 l) 1521786632025612 12 (n l 1521786632336940 6 l)) 34998670879372812 13
    (n (n l 34998670879684140 3 l) 34998771781744128 1 (n l 34998771782055456 4 l)))))
def codes0_131 : List Nat × Tree := ([1521685729654272, 34998771782048256, 34998771781744128,
    1458387837531660, 34998670879676928, 1521685729958400, 65935113509388, 1521786632025600,
    65935113205260, 1521786632329728, 1458387837835788, 34998670879372800, 1460809494747660,
    63513456293388, 63513456597516, 1460809494443532], (n (n (n (n (n l 63513456293388 13 l)
    63513456597516 14 l) 65935113205260 8 (n l 65935113509388 6 l)) 1458387837531660 3 (n (n l
    1458387837835788 10 l) 1460809494443532 15 (n l 1460809494747660 12 l))) 1521685729654272 0 (n
    (n (n l 1521685729958400 5 l) 1521786632025600 7 (n l 1521786632329728 9 l)) 34998670879372800
    11 (n (n l 34998670879676928 4 l) 34998771781744128 2 (n l 34998771782048256 1 l)))))
def codes0_132 : List Nat × Tree := ([1521685729654272, 34998771782048256, 34998771781744128,
    1458387837531660, 34998670879676940, 1521685729958400, 65935113509388, 1521786632025612,
    65935113205260, 1521786632329740, 1458387837835788, 34998670879372812, 1460809494747648,
    63513456293376, 63513456597504, 1460809494443520], (n (n (n (n (n l 63513456293376 13 l)
    63513456597504 14 l) 65935113205260 8 (n l 65935113509388 6 l)) 1458387837531660 3 (n (n l
    1458387837835788 10 l) 1460809494443520 15 (n l 1460809494747648 12 l))) 1521685729654272 0 (n
    (n (n l 1521685729958400 5 l) 1521786632025612 7 (n l 1521786632329740 9 l)) 34998670879372812
    11 (n (n l 34998670879676940 4 l) 34998771781744128 2 (n l 34998771782048256 1 l)))))
def codes0_133 : List Nat × Tree := ([1521685729654272, 34998771781744128, 1458387837538860,
    34998670879676940, 34998771782055468, 65935113212460, 1521786632329740, 1521685729965612,
    1460809494754848, 65935113509376, 63513456604704, 1458387837835776, 1521786632032800,
    34998670879380000, 1460809494443532, 63513456293388], (n (n (n (n (n l 63513456293388 15 l)
    63513456604704 10 l) 65935113212460 5 (n l 65935113509376 9 l)) 1458387837538860 2 (n (n l
    1458387837835776 11 l) 1460809494443532 14 (n l 1460809494754848 8 l))) 1521685729654272 0 (n (n
    (n l 1521685729965612 7 l) 1521786632032800 12 (n l 1521786632329740 6 l)) 34998670879380000 13
    (n (n l 34998670879676940 3 l) 34998771781744128 1 (n l 34998771782055468 4 l)))))
def codes0_134 : List Nat × Tree := ([1521685729654272, 34998771781744128, 1458387837538860,
    34998670879676928, 34998771782055468, 65935113212460, 1521786632329728, 1521685729965612,
    1460809494754860, 65935113509376, 63513456604716, 1458387837835776, 1521786632032812,
    34998670879380012, 1460809494443520, 63513456293376], (n (n (n (n (n l 63513456293376 15 l)
    63513456604716 10 l) 65935113212460 5 (n l 65935113509376 9 l)) 1458387837538860 2 (n (n l
    1458387837835776 11 l) 1460809494443520 14 (n l 1460809494754860 8 l))) 1521685729654272 0 (n (n
    (n l 1521685729965612 7 l) 1521786632032812 12 (n l 1521786632329728 6 l)) 34998670879380012 13
    (n (n l 34998670879676928 3 l) 34998771781744128 1 (n l 34998771782055468 4 l)))))
def codes0_135 : List Nat × Tree := ([1521685729654272, 34998771782048256, 34998771781744128,
    1458387837531660, 34998670879684128, 1521685729958400, 65935113509388, 1521786632032800,
    65935113205260, 1521786632336928, 1458387837835788, 34998670879380000, 1460809494754860,
    63513456300588, 63513456604716, 1460809494450732], (n (n (n (n (n l 63513456300588 13 l)
    63513456604716 14 l) 65935113205260 8 (n l 65935113509388 6 l)) 1458387837531660 3 (n (n l
    1458387837835788 10 l) 1460809494450732 15 (n l 1460809494754860 12 l))) 1521685729654272 0 (n
    (n (n l 1521685729958400 5 l) 1521786632032800 7 (n l 1521786632336928 9 l)) 34998670879380000
    11 (n (n l 34998670879684128 4 l) 34998771781744128 2 (n l 34998771782048256 1 l)))))
def codes0_136 : List Nat × Tree := ([1521685729654272, 34998771782048256, 34998771781744128,
    1458387837538860, 34998670879684140, 1521685729958400, 65935113516588, 1521786632032812,
    65935113212460, 1521786632336940, 1458387837842988, 34998670879380012, 1460809494747648,
    63513456293376, 63513456597504, 1460809494443520], (n (n (n (n (n l 63513456293376 13 l)
    63513456597504 14 l) 65935113212460 8 (n l 65935113516588 6 l)) 1458387837538860 3 (n (n l
    1458387837842988 10 l) 1460809494443520 15 (n l 1460809494747648 12 l))) 1521685729654272 0 (n
    (n (n l 1521685729958400 5 l) 1521786632032812 7 (n l 1521786632336940 9 l)) 34998670879380012
    11 (n (n l 34998670879684140 4 l) 34998771781744128 2 (n l 34998771782048256 1 l)))))
def codes0_137 : List Nat × Tree := ([1521685729654272, 34998771781744128, 1458387837538860,
    34998670879684140, 34998771782055468, 65935113212460, 1521786632336940, 1521685729965612,
    1460809494747648, 65935113509376, 63513456597504, 1458387837835776, 1521786632025600,
    34998670879372800, 1460809494450732, 63513456300588], (n (n (n (n (n l 63513456300588 15 l)
    63513456597504 10 l) 65935113212460 5 (n l 65935113509376 9 l)) 1458387837538860 2 (n (n l
    1458387837835776 11 l) 1460809494450732 14 (n l 1460809494747648 8 l))) 1521685729654272 0 (n (n
    (n l 1521685729965612 7 l) 1521786632025600 12 (n l 1521786632336940 6 l)) 34998670879372800 13
    (n (n l 34998670879684140 3 l) 34998771781744128 1 (n l 34998771782055468 4 l)))))
def codes0_138 : List Nat × Tree := ([1521685729654272, 34998771781744128, 1458387837538860,
    34998670879684128, 34998771782055468, 65935113212460, 1521786632336928, 1521685729965612,
    1460809494747660, 65935113509376, 63513456597516, 1458387837835776, 1521786632025612,
    34998670879372812, 1460809494450720, 63513456300576], (n (n (n (n (n l 63513456300576 15 l)
    63513456597516 10 l) 65935113212460 5 (n l 65935113509376 9 l)) 1458387837538860 2 (n (n l
    1458387837835776 11 l) 1460809494450720 14 (n l 1460809494747660 8 l))) 1521685729654272 0 (n (n
    (n l 1521685729965612 7 l) 1521786632025612 12 (n l 1521786632336928 6 l)) 34998670879372812 13
    (n (n l 34998670879684128 3 l) 34998771781744128 1 (n l 34998771782055468 4 l)))))
def codes0_139 : List Nat × Tree := ([1521685729654272, 34998771782048256, 1521685729661484,
    34998771781744128, 1458387837531648, 34998670879676928, 34998771782055468, 1521685729958400,
    65935113509376, 1521786632025600, 34998771781751340, 1458387837538860, 34998670879684140,
    1521685729965612, 65935113516588, 1521786632032812, 65935113205248, 1521786632329728,
    1458387837835776, 34998670879372800, 65935113212460, 1521786632336940, 1458387837842988,
    34998670879380012, 1460809494747648, 63513456293376, 1460809494754860, 63513456300588,
    63513456597504, 1460809494443520, 63513456604716, 1460809494450732], (n (n (n (n (n (n l
    63513456293376 25 l) 63513456300588 27 l) 63513456597504 28 (n l 63513456604716 30 l))
    65935113205248 16 (n (n l 65935113212460 20 l) 65935113509376 8 (n l 65935113516588 14 l)))
    1458387837531648 4 (n (n (n l 1458387837538860 11 l) 1458387837835776 18 (n l 1458387837842988
    22 l)) 1460809494443520 29 (n (n l 1460809494450732 31 l) 1460809494747648 24 (n l
    1460809494754860 26 l)))) 1521685729654272 0 (n (n (n (n l 1521685729661484 2 l)
    1521685729958400 7 (n l 1521685729965612 13 l)) 1521786632025600 9 (n (n l 1521786632032812 15
    l) 1521786632329728 17 (n l 1521786632336940 21 l))) 34998670879372800 19 (n (n (n l
    34998670879380012 23 l) 34998670879676928 5 (n l 34998670879684140 12 l)) 34998771781744128 3 (n
    (n l 34998771781751340 10 l) 34998771782048256 1 (n l 34998771782055468 6 l))))))
def codes0_140 : List Nat × Tree := ([1521685729654272, 34998771782048256, 1521685729661484,
    34998771781744128, 1458387837531648, 34998670879676940, 34998771782055468, 1521685729958400,
    65935113509376, 1521786632025612, 34998771781751340, 1458387837538860, 34998670879684128,
    1521685729965612, 65935113516588, 1521786632032800, 65935113205248, 1521786632329740,
    1458387837835776, 34998670879372812, 65935113212460, 1521786632336928, 1458387837842988,
    34998670879380000, 1460809494747660, 63513456293388, 1460809494754848, 63513456300576,
    63513456597516, 1460809494443532, 63513456604704, 1460809494450720], (n (n (n (n (n (n l
    63513456293388 25 l) 63513456300576 27 l) 63513456597516 28 (n l 63513456604704 30 l))
    65935113205248 16 (n (n l 65935113212460 20 l) 65935113509376 8 (n l 65935113516588 14 l)))
    1458387837531648 4 (n (n (n l 1458387837538860 11 l) 1458387837835776 18 (n l 1458387837842988
    22 l)) 1460809494443532 29 (n (n l 1460809494450720 31 l) 1460809494747660 24 (n l
    1460809494754848 26 l)))) 1521685729654272 0 (n (n (n (n l 1521685729661484 2 l)
    1521685729958400 7 (n l 1521685729965612 13 l)) 1521786632025612 9 (n (n l 1521786632032800 15
    l) 1521786632329740 17 (n l 1521786632336928 21 l))) 34998670879372812 19 (n (n (n l
    34998670879380000 23 l) 34998670879676940 5 (n l 34998670879684128 12 l)) 34998771781744128 3 (n
    (n l 34998771781751340 10 l) 34998771782048256 1 (n l 34998771782055468 6 l))))))
def codes0_141 : List Nat × Tree := ([1521685729654272, 1521685729661484, 34998771781751340,
    1458387837531942, 34998670879683858, 34998771782048550, 34998771781744128, 1458387837538578,
    34998670879677222, 34998771782055186, 65935113212178, 1521786632330022, 1521685729965330,
    65935113205542, 1521786632336658, 1521685729958694, 1460809494747648, 65935113516588,
    1460809494754860, 65935113509376, 63513456604716, 1458387837835776, 63513456597504,
    1458387837842988, 1521786632032812, 1521786632025600, 34998670879372800, 34998670879380012,
    1460809494443814, 1460809494450450, 63513456300306, 63513456293670], (n (n (n (n (n (n l
    63513456293670 31 l) 63513456300306 30 l) 63513456597504 22 (n l 63513456604716 20 l))
    65935113205542 13 (n (n l 65935113212178 10 l) 65935113509376 19 (n l 65935113516588 17 l)))
    1458387837531942 3 (n (n (n l 1458387837538578 7 l) 1458387837835776 21 (n l 1458387837842988 23
    l)) 1460809494443814 28 (n (n l 1460809494450450 29 l) 1460809494747648 16 (n l 1460809494754860
    18 l)))) 1521685729654272 0 (n (n (n (n l 1521685729661484 1 l) 1521685729958694 15 (n l
    1521685729965330 12 l)) 1521786632025600 25 (n (n l 1521786632032812 24 l) 1521786632330022 11
    (n l 1521786632336658 14 l))) 34998670879372800 26 (n (n (n l 34998670879380012 27 l)
    34998670879677222 8 (n l 34998670879683858 4 l)) 34998771781744128 6 (n (n l 34998771781751340 2
    l) 34998771782048550 5 (n l 34998771782055186 9 l))))))
def codes0_142 : List Nat × Tree := ([1521685729654272, 1521685729661484, 34998771781751340,
    1458387837531942, 34998670879683846, 34998771782048550, 34998771781744128, 1458387837538578,
    34998670879677234, 34998771782055186, 65935113212178, 1521786632330034, 1521685729965330,
    65935113205542, 1521786632336646, 1521685729958694, 1460809494747660, 65935113516588,
    1460809494754848, 65935113509376, 63513456604704, 1458387837835776, 63513456597516,
    1458387837842988, 1521786632032800, 1521786632025612, 34998670879372812, 34998670879380000,
    1460809494443826, 1460809494450438, 63513456300294, 63513456293682], (n (n (n (n (n (n l
    63513456293682 31 l) 63513456300294 30 l) 63513456597516 22 (n l 63513456604704 20 l))
    65935113205542 13 (n (n l 65935113212178 10 l) 65935113509376 19 (n l 65935113516588 17 l)))
    1458387837531942 3 (n (n (n l 1458387837538578 7 l) 1458387837835776 21 (n l 1458387837842988 23
    l)) 1460809494443826 28 (n (n l 1460809494450438 29 l) 1460809494747660 16 (n l 1460809494754848
    18 l)))) 1521685729654272 0 (n (n (n (n l 1521685729661484 1 l) 1521685729958694 15 (n l
    1521685729965330 12 l)) 1521786632025612 25 (n (n l 1521786632032800 24 l) 1521786632330034 11
    (n l 1521786632336646 14 l))) 34998670879372812 26 (n (n (n l 34998670879380000 27 l)
    34998670879677234 8 (n l 34998670879683846 4 l)) 34998771781744128 6 (n (n l 34998771781751340 2
    l) 34998771782048550 5 (n l 34998771782055186 9 l))))))
def codes0_143 : List Nat × Tree := ([1521685729654272, 1458493326374400, 35064601406092800], (n (n
    l 1458493326374400 1 l) 1521685729654272 0 (n l 35064601406092800 2 l)))
def codes0_144 : List Nat × Tree := ([1521685729654272, 1458493326374408, 35064601406092816], (n (n
    l 1458493326374408 1 l) 1521685729654272 0 (n l 35064601406092816 2 l)))
def codes0_145 : List Nat × Tree := ([1521685729654272, 1458493326374416, 35064601406092808], (n (n
    l 1458493326374416 1 l) 1521685729654272 0 (n l 35064601406092808 2 l)))
def codes0_146 : List Nat × Tree := ([1521685729654272, 1521685729663688, 1458493326374400,
    1521685729659280, 1458493326383816, 1458493326379408, 35064601406092800, 35064601406102216,
    35064601406097808], (n (n (n (n l 1458493326374400 2 l) 1458493326379408 5 l) 1458493326383816 4
    (n l 1521685729654272 0 l)) 1521685729659280 3 (n (n (n l 1521685729663688 1 l)
    35064601406092800 6 l) 35064601406097808 8 (n l 35064601406102216 7 l))))
def codes0_147 : List Nat × Tree := ([1521685729654272, 34998771782048256, 1458493326374400,
    65939699980800, 35064601406092800, 2980068981004800], (n (n (n l 65939699980800 3 l)
    1458493326374400 2 (n l 1521685729654272 0 l)) 2980068981004800 5 (n (n l 34998771782048256 1 l)
    35064601406092800 4 l)))
def codes0_148 : List Nat × Tree := ([1521685729654272, 34998771782048256, 1521685729663688,
    1458493326374400, 34998771782053264, 65939699980800, 1521685729659280, 1458493326383816,
    65939699990216, 1458493326379408, 65939699985808, 35064601406092800, 2980068981004800,
    35064601406102216, 2980068981014216, 35064601406097808, 2980068981009808, 34998771782057672], (n
    (n (n (n (n l 65939699980800 5 l) 65939699985808 10 l) 65939699990216 8 (n l 1458493326374400 3
    l)) 1458493326379408 9 (n (n (n l 1458493326383816 7 l) 1521685729654272 0 l) 1521685729659280 6
    (n l 1521685729663688 2 l))) 2980068981004800 12 (n (n (n (n l 2980068981009808 16 l)
    2980068981014216 14 l) 34998771782048256 1 (n l 34998771782053264 4 l)) 34998771782057672 17 (n
    (n l 35064601406092800 11 l) 35064601406097808 15 (n l 35064601406102216 13 l)))))
def codes0_149 : List Nat × Tree := ([1521685729654272, 1458493326374400, 1460809494747648,
    35064601406092800, 1521896707643904, 35062074260642304], (n (n (n l 1458493326374400 1 l)
    1460809494747648 2 (n l 1521685729654272 0 l)) 1521896707643904 4 (n (n l 35062074260642304 5 l)
    35064601406092800 3 l)))
def codes0_150 : List Nat × Tree := ([1521685729654272, 1458493326374400, 63513456597504,
    35064601406092800, 35001202611902976, 2980064394533376], (n (n (n l 63513456597504 2 l)
    1458493326374400 1 (n l 1521685729654272 0 l)) 2980064394533376 5 (n (n l 35001202611902976 4 l)
    35064601406092800 3 l)))
def codes0_151 : List Nat × Tree := ([1521685729654272, 1458493326374408, 1460809494747664,
    35064601406092816, 1521896707643904, 35062074260642312], (n (n (n l 1458493326374408 1 l)
    1460809494747664 2 (n l 1521685729654272 0 l)) 1521896707643904 4 (n (n l 35062074260642312 5 l)
    35064601406092816 3 l)))
def codes0_152 : List Nat × Tree := ([1521685729654272, 1458493326374408, 63513456597504,
    35064601406092816, 35001202611902984, 2980064394533392], (n (n (n l 63513456597504 2 l)
    1458493326374408 1 (n l 1521685729654272 0 l)) 2980064394533392 5 (n (n l 35001202611902984 4 l)
    35064601406092816 3 l)))
def codes0_153 : List Nat × Tree := ([1521685729654272, 1458493326374416, 1460809494747656,
    35064601406092808, 1521896707643904, 35062074260642320], (n (n (n l 1458493326374416 1 l)
    1460809494747656 2 (n l 1521685729654272 0 l)) 1521896707643904 4 (n (n l 35062074260642320 5 l)
    35064601406092808 3 l)))
def codes0_154 : List Nat × Tree := ([1521685729654272, 1458493326374416, 63513456597504,
    35064601406092808, 35001202611902992, 2980064394533384], (n (n (n l 63513456597504 2 l)
    1458493326374416 1 (n l 1521685729654272 0 l)) 2980064394533384 5 (n (n l 35001202611902992 4 l)
    35064601406092808 3 l)))
def codes0_155 : List Nat × Tree := ([1521685729654272, 1521685729663688, 1458493326374400,
    63513456597504, 1521685729659280, 1458493326383816, 63513456606920, 1458493326379408,
    63513456602512, 35064601406092800, 35001202611902976, 35064601406102216, 35001202611912392,
    35064601406097808, 35001202611907984, 2980064394533376, 2980064394542792, 2980064394538384], (n
    (n (n (n (n l 63513456597504 3 l) 63513456602512 8 l) 63513456606920 6 (n l 1458493326374400 2
    l)) 1458493326379408 7 (n (n (n l 1458493326383816 5 l) 1521685729654272 0 l) 1521685729659280 4
    (n l 1521685729663688 1 l))) 2980064394533376 15 (n (n (n (n l 2980064394538384 17 l)
    2980064394542792 16 l) 35001202611902976 10 (n l 35001202611907984 14 l)) 35001202611912392 12
    (n (n l 35064601406092800 9 l) 35064601406097808 13 (n l 35064601406102216 11 l)))))
def codes0_156 : List Nat × Tree := ([1521685729654272, 1458493326374400, 1460809494443520,
    35064601406092800, 1521896707339776, 35062074260338176], (n (n (n l 1458493326374400 1 l)
    1460809494443520 2 (n l 1521685729654272 0 l)) 1521896707339776 4 (n (n l 35062074260338176 5 l)
    35064601406092800 3 l)))
def codes0_157 : List Nat × Tree := ([1521685729654272, 1458493326374400, 63513456293376,
    35064601406092800, 35001202611598848, 2980064394229248], (n (n (n l 63513456293376 2 l)
    1458493326374400 1 (n l 1521685729654272 0 l)) 2980064394229248 5 (n (n l 35001202611598848 4 l)
    35064601406092800 3 l)))
def codes0_158 : List Nat × Tree := ([1521685729654272, 1458493326374400, 1460809494443532,
    35064601406092800, 1521896707339788, 35062074260338188], (n (n (n l 1458493326374400 1 l)
    1460809494443532 2 (n l 1521685729654272 0 l)) 1521896707339788 4 (n (n l 35062074260338188 5 l)
    35064601406092800 3 l)))
def codes0_159 : List Nat × Tree := ([1521685729654272, 1458493326374400, 63513456293388,
    35064601406092800, 35001202611598860, 2980064394229260], (n (n (n l 63513456293388 2 l)
    1458493326374400 1 (n l 1521685729654272 0 l)) 2980064394229260 5 (n (n l 35001202611598860 4 l)
    35064601406092800 3 l)))
def codes0_160 : List Nat × Tree := ([1521685729654272, 1521685729663688, 1458493326374400,
    1460809494443520, 1521685729659280, 1458493326383816, 1460809494452936, 1458493326379408,
    1460809494448528, 35064601406092800, 1521896707339776, 35064601406102216, 1521896707349192,
    35064601406097808, 1521896707344784, 35062074260338176, 35062074260347592, 35062074260343184],
    (n (n (n (n (n l 1458493326374400 2 l) 1458493326379408 7 l) 1458493326383816 5 (n l
    1460809494443520 3 l)) 1460809494448528 8 (n (n (n l 1460809494452936 6 l) 1521685729654272 0 l)
    1521685729659280 4 (n l 1521685729663688 1 l))) 1521896707339776 10 (n (n (n (n l
    1521896707344784 14 l) 1521896707349192 12 l) 35062074260338176 15 (n l 35062074260343184 17 l))
    35062074260347592 16 (n (n l 35064601406092800 9 l) 35064601406097808 13 (n l 35064601406102216
    11 l)))))
def codes0_161 : List Nat × Tree := ([1521685729654272, 1521685729663688, 1458493326374400,
    1460809494443532, 1521685729659280, 1458493326383816, 1460809494452948, 1458493326379408,
    1460809494448516, 35064601406092800, 1521896707339788, 35064601406102216, 1521896707349204,
    35064601406097808, 1521896707344772, 35062074260338188, 35062074260347604, 35062074260343172],
    (n (n (n (n (n l 1458493326374400 2 l) 1458493326379408 7 l) 1458493326383816 5 (n l
    1460809494443532 3 l)) 1460809494448516 8 (n (n (n l 1460809494452948 6 l) 1521685729654272 0 l)
    1521685729659280 4 (n l 1521685729663688 1 l))) 1521896707339788 10 (n (n (n (n l
    1521896707344772 14 l) 1521896707349204 12 l) 35062074260338188 15 (n l 35062074260343172 17 l))
    35062074260347604 16 (n (n l 35064601406092800 9 l) 35064601406097808 13 (n l 35064601406102216
    11 l)))))
def codes0_162 : List Nat × Tree := ([1521685729654272, 34998771782048256, 1458493326374400,
    1460809494747648, 65939699980800, 63513456293376, 35064601406092800, 1521896707643904,
    2980068981004800, 35001202611598848, 35062074260642304, 2980064394229248], (n (n (n (n l
    63513456293376 5 l) 65939699980800 4 (n l 1458493326374400 2 l)) 1460809494747648 3 (n (n l
    1521685729654272 0 l) 1521896707643904 7 l)) 2980064394229248 11 (n (n (n l 2980068981004800 8
    l) 34998771782048256 1 l) 35001202611598848 9 (n (n l 35062074260642304 10 l) 35064601406092800
    6 l))))
def codes0_163 : List Nat × Tree := ([1521685729654272, 34998771782048256, 1458493326374400,
    1460809494747660, 65939699980800, 63513456293388, 35064601406092800, 1521896707643916,
    2980068981004800, 35001202611598860, 35062074260642316, 2980064394229260], (n (n (n (n l
    63513456293388 5 l) 65939699980800 4 (n l 1458493326374400 2 l)) 1460809494747660 3 (n (n l
    1521685729654272 0 l) 1521896707643916 7 l)) 2980064394229260 11 (n (n (n l 2980068981004800 8
    l) 34998771782048256 1 l) 35001202611598860 9 (n (n l 35062074260642316 10 l) 35064601406092800
    6 l))))
def codes0_164 : List Nat × Tree := ([1521685729654272, 34998771782048256, 1458493326374400,
    63513456597504, 65939699980800, 1460809494443520, 35064601406092800, 35001202611902976,
    2980068981004800, 1521896707339776, 2980064394533376, 35062074260338176], (n (n (n (n l
    63513456597504 3 l) 65939699980800 4 (n l 1458493326374400 2 l)) 1460809494443520 5 (n (n l
    1521685729654272 0 l) 1521896707339776 9 l)) 2980064394533376 10 (n (n (n l 2980068981004800 8
    l) 34998771782048256 1 l) 35001202611902976 7 (n (n l 35062074260338176 11 l) 35064601406092800
    6 l))))
def codes0_165 : List Nat × Tree := ([1521685729654272, 34998771782048256, 1458493326374400,
    63513456597516, 65939699980800, 1460809494443532, 35064601406092800, 35001202611902988,
    2980068981004800, 1521896707339788, 2980064394533388, 35062074260338188], (n (n (n (n l
    63513456597516 3 l) 65939699980800 4 (n l 1458493326374400 2 l)) 1460809494443532 5 (n (n l
    1521685729654272 0 l) 1521896707339788 9 l)) 2980064394533388 10 (n (n (n l 2980068981004800 8
    l) 34998771782048256 1 l) 35001202611902988 7 (n (n l 35062074260338188 11 l) 35064601406092800
    6 l))))
def codes0_166 : List Nat × Tree := ([1521685729654272, 34998771782048256, 1521685729663688,
    1458493326374400, 63513456597504, 34998771782053264, 65939699980800, 1460809494443520,
    1521685729659280, 1458493326383816, 63513456606920, 65939699990216, 1460809494452936,
    1458493326379408, 63513456602512, 65939699985808, 1460809494448528, 35064601406092800,
    35001202611902976, 2980068981004800, 1521896707339776, 35064601406102216, 35001202611912392,
    2980068981014216, 1521896707349192, 35064601406097808, 35001202611907984, 2980068981009808,
    1521896707344784, 2980064394533376, 35062074260338176, 2980064394542792, 34998771782057672,
    35062074260347592, 2980064394538384, 35062074260343184], (n (n (n (n (n (n l 63513456597504 4 l)
    63513456602512 14 l) 63513456606920 10 (n l 65939699980800 6 l)) 65939699985808 15 (n (n (n l
    65939699990216 11 l) 1458493326374400 3 l) 1458493326379408 13 (n l 1458493326383816 9 l)))
    1460809494443520 7 (n (n (n (n l 1460809494448528 16 l) 1460809494452936 12 l) 1521685729654272
    0 (n l 1521685729659280 8 l)) 1521685729663688 2 (n (n l 1521896707339776 20 l) 1521896707344784
    28 (n l 1521896707349192 24 l)))) 2980064394533376 29 (n (n (n (n (n l 2980064394538384 34 l)
    2980064394542792 31 l) 2980068981004800 19 (n l 2980068981009808 27 l)) 2980068981014216 23 (n
    (n l 34998771782048256 1 l) 34998771782053264 5 (n l 34998771782057672 32 l))) 35001202611902976
    18 (n (n (n (n l 35001202611907984 26 l) 35001202611912392 22 l) 35062074260338176 30 (n l
    35062074260343184 35 l)) 35062074260347592 33 (n (n l 35064601406092800 17 l) 35064601406097808
    25 (n l 35064601406102216 21 l))))))
def codes0_167 : List Nat × Tree := ([1521685729654272, 34998771782048256, 1521685729663688,
    1458493326374400, 63513456597516, 34998771782053264, 65939699980800, 1460809494443532,
    1521685729659280, 1458493326383816, 63513456606932, 65939699990216, 1460809494452948,
    1458493326379408, 63513456602500, 65939699985808, 1460809494448516, 35064601406092800,
    35001202611902988, 2980068981004800, 1521896707339788, 35064601406102216, 35001202611912404,
    2980068981014216, 1521896707349204, 35064601406097808, 35001202611907972, 2980068981009808,
    1521896707344772, 2980064394533388, 35062074260338188, 2980064394542804, 34998771782057672,
    35062074260347604, 2980064394538372, 35062074260343172], (n (n (n (n (n (n l 63513456597516 4 l)
    63513456602500 14 l) 63513456606932 10 (n l 65939699980800 6 l)) 65939699985808 15 (n (n (n l
    65939699990216 11 l) 1458493326374400 3 l) 1458493326379408 13 (n l 1458493326383816 9 l)))
    1460809494443532 7 (n (n (n (n l 1460809494448516 16 l) 1460809494452948 12 l) 1521685729654272
    0 (n l 1521685729659280 8 l)) 1521685729663688 2 (n (n l 1521896707339788 20 l) 1521896707344772
    28 (n l 1521896707349204 24 l)))) 2980064394533388 29 (n (n (n (n (n l 2980064394538372 34 l)
    2980064394542804 31 l) 2980068981004800 19 (n l 2980068981009808 27 l)) 2980068981014216 23 (n
    (n l 34998771782048256 1 l) 34998771782053264 5 (n l 34998771782057672 32 l))) 35001202611902988
    18 (n (n (n (n l 35001202611907972 26 l) 35001202611912404 22 l) 35062074260338188 30 (n l
    35062074260343172 35 l)) 35062074260347604 33 (n (n l 35064601406092800 17 l) 35064601406097808
    25 (n l 35064601406102216 21 l))))))
def codes0_168 : List Nat × Tree := ([1521685729654272, 1458493326374400, 34998771781744128,
    35064601406092800, 65939699676672, 2980068980700672], (n (n (n l 65939699676672 4 l)
    1458493326374400 1 (n l 1521685729654272 0 l)) 2980068980700672 5 (n (n l 34998771781744128 2 l)
    35064601406092800 3 l)))
def codes0_169 : List Nat × Tree := ([1521685729654272, 1458493326374408, 34998771781744140,
    35064601406092816, 65939699676692, 2980068980700676], (n (n (n l 65939699676692 4 l)
    1458493326374408 1 (n l 1521685729654272 0 l)) 2980068980700676 5 (n (n l 34998771781744140 2 l)
    35064601406092816 3 l)))
def codes0_170 : List Nat × Tree := ([1521685729654272, 1458493326374416, 34998771781744140,
    35064601406092808, 65939699676676, 2980068980700692], (n (n (n l 65939699676676 4 l)
    1458493326374416 1 (n l 1521685729654272 0 l)) 2980068980700692 5 (n (n l 34998771781744140 2 l)
    35064601406092808 3 l)))
def codes0_171 : List Nat × Tree := ([1521685729654272, 1458493326374416, 34998771781744128,
    35064601406092808, 65939699676688, 2980068980700680], (n (n (n l 65939699676688 4 l)
    1458493326374416 1 (n l 1521685729654272 0 l)) 2980068980700680 5 (n (n l 34998771781744128 2 l)
    35064601406092808 3 l)))
def codes0_172 : List Nat × Tree := ([1521685729654272, 1458493326374408, 34998771781744128,
    35064601406092816, 65939699676680, 2980068980700688], (n (n (n l 65939699676680 4 l)
    1458493326374408 1 (n l 1521685729654272 0 l)) 2980068980700688 5 (n (n l 34998771781744128 2 l)
    35064601406092816 3 l)))
def codes0_173 : List Nat × Tree := ([1521685729654272, 1458493326374400, 34998771781744140,
    35064601406092800, 65939699676684, 2980068980700684], (n (n (n l 65939699676684 4 l)
    1458493326374400 1 (n l 1521685729654272 0 l)) 2980068980700684 5 (n (n l 34998771781744140 2 l)
    35064601406092800 3 l)))
def codes0_174 : List Nat × Tree := ([1521685729654272, 1458493326374400, 1521685729958400,
    35064601406092800, 1458493326678528, 35064601406396928], (n (n (n l 1458493326374400 1 l)
    1458493326678528 4 (n l 1521685729654272 0 l)) 1521685729958400 2 (n (n l 35064601406092800 3 l)
    35064601406396928 5 l)))
def codes0_175 : List Nat × Tree := ([1521685729654272, 34998771782048256, 1458493326374400,
    34998771781744128, 65939699980800, 1521685729958400, 35064601406092800, 65939699676672,
    2980068981004800, 1458493326678528, 2980068980700672, 35064601406396928], (n (n (n (n l
    65939699676672 7 l) 65939699980800 4 (n l 1458493326374400 2 l)) 1458493326678528 9 (n (n l
    1521685729654272 0 l) 1521685729958400 5 l)) 2980068980700672 10 (n (n (n l 2980068981004800 8
    l) 34998771781744128 3 l) 34998771782048256 1 (n (n l 35064601406092800 6 l) 35064601406396928
    11 l))))
def codes0_176 : List Nat × Tree := ([1521685729654272, 34998771782048256, 1458493326374400,
    34998771781744140, 65939699980800, 1521685729958412, 35064601406092800, 65939699676684,
    2980068981004800, 1458493326678540, 2980068980700684, 35064601406396940], (n (n (n (n l
    65939699676684 7 l) 65939699980800 4 (n l 1458493326374400 2 l)) 1458493326678540 9 (n (n l
    1521685729654272 0 l) 1521685729958412 5 l)) 2980068980700684 10 (n (n (n l 2980068981004800 8
    l) 34998771781744140 3 l) 34998771782048256 1 (n (n l 35064601406092800 6 l) 35064601406396940
    11 l))))
def codes0_177 : List Nat × Tree := ([1521685729654272, 1458493326374400, 34998771781744128,
    63513456597504, 35064601406092800, 65939699676672, 35001202611902976, 2980068980700672,
    2980064394533376, 1460809494747648, 1521896707643904, 35062074260642304], (n (n (n (n l
    63513456597504 3 l) 65939699676672 5 (n l 1458493326374400 1 l)) 1460809494747648 9 (n (n l
    1521685729654272 0 l) 1521896707643904 10 l)) 2980064394533376 8 (n (n (n l 2980068980700672 7
    l) 34998771781744128 2 l) 35001202611902976 6 (n (n l 35062074260642304 11 l) 35064601406092800
    4 l))))
def codes0_178 : List Nat × Tree := ([1521685729654272, 1458493326374408, 34998771781744140,
    63513456597512, 35064601406092816, 65939699676692, 35001202611902992, 2980068980700676,
    2980064394533376, 1460809494747668, 1521896707643908, 35062074260642316], (n (n (n (n l
    63513456597512 3 l) 65939699676692 5 (n l 1458493326374408 1 l)) 1460809494747668 9 (n (n l
    1521685729654272 0 l) 1521896707643908 10 l)) 2980064394533376 8 (n (n (n l 2980068980700676 7
    l) 34998771781744140 2 l) 35001202611902992 6 (n (n l 35062074260642316 11 l) 35064601406092816
    4 l))))
def codes0_179 : List Nat × Tree := ([1521685729654272, 1458493326374416, 34998771781744140,
    63513456597520, 35064601406092808, 65939699676676, 35001202611902984, 2980068980700692,
    2980064394533376, 1460809494747652, 1521896707643924, 35062074260642316], (n (n (n (n l
    63513456597520 3 l) 65939699676676 5 (n l 1458493326374416 1 l)) 1460809494747652 9 (n (n l
    1521685729654272 0 l) 1521896707643924 10 l)) 2980064394533376 8 (n (n (n l 2980068980700692 7
    l) 34998771781744140 2 l) 35001202611902984 6 (n (n l 35062074260642316 11 l) 35064601406092808
    4 l))))
def codes0_180 : List Nat × Tree := ([1521685729654272, 1458493326374416, 34998771781744128,
    63513456597520, 35064601406092808, 65939699676688, 35001202611902984, 2980068980700680,
    2980064394533376, 1460809494747664, 1521896707643912, 35062074260642304], (n (n (n (n l
    63513456597520 3 l) 65939699676688 5 (n l 1458493326374416 1 l)) 1460809494747664 9 (n (n l
    1521685729654272 0 l) 1521896707643912 10 l)) 2980064394533376 8 (n (n (n l 2980068980700680 7
    l) 34998771781744128 2 l) 35001202611902984 6 (n (n l 35062074260642304 11 l) 35064601406092808
    4 l))))
def codes0_181 : List Nat × Tree := ([1521685729654272, 1458493326374408, 34998771781744128,
    63513456597512, 35064601406092816, 65939699676680, 35001202611902992, 2980068980700688,
    2980064394533376, 1460809494747656, 1521896707643920, 35062074260642304], (n (n (n (n l
    63513456597512 3 l) 65939699676680 5 (n l 1458493326374408 1 l)) 1460809494747656 9 (n (n l
    1521685729654272 0 l) 1521896707643920 10 l)) 2980064394533376 8 (n (n (n l 2980068980700688 7
    l) 34998771781744128 2 l) 35001202611902992 6 (n (n l 35062074260642304 11 l) 35064601406092816
    4 l))))
def codes0_182 : List Nat × Tree := ([1521685729654272, 1458493326374400, 34998771781744140,
    63513456597504, 35064601406092800, 65939699676684, 35001202611902976, 2980068980700684,
    2980064394533376, 1460809494747660, 1521896707643916, 35062074260642316], (n (n (n (n l
    63513456597504 3 l) 65939699676684 5 (n l 1458493326374400 1 l)) 1460809494747660 9 (n (n l
    1521685729654272 0 l) 1521896707643916 10 l)) 2980064394533376 8 (n (n (n l 2980068980700684 7
    l) 34998771781744140 2 l) 35001202611902976 6 (n (n l 35062074260642316 11 l) 35064601406092800
    4 l))))
def codes0_183 : List Nat × Tree := ([1521685729654272, 1458493326374400, 34998771781744128,
    1460809494443520, 35064601406092800, 65939699676672, 1521896707339776, 2980068980700672,
    35062074260338176, 63513456293376, 35001202611598848, 2980064394229248], (n (n (n (n l
    63513456293376 9 l) 65939699676672 5 (n l 1458493326374400 1 l)) 1460809494443520 3 (n (n l
    1521685729654272 0 l) 1521896707339776 6 l)) 2980064394229248 11 (n (n (n l 2980068980700672 7
    l) 34998771781744128 2 l) 35001202611598848 10 (n (n l 35062074260338176 8 l) 35064601406092800
    4 l))))
def codes0_184 : List Nat × Tree := ([1521685729654272, 1458493326374400, 34998771781744128,
    1460809494443532, 35064601406092800, 65939699676672, 1521896707339788, 2980068980700672,
    35062074260338188, 63513456293388, 35001202611598860, 2980064394229260], (n (n (n (n l
    63513456293388 9 l) 65939699676672 5 (n l 1458493326374400 1 l)) 1460809494443532 3 (n (n l
    1521685729654272 0 l) 1521896707339788 6 l)) 2980064394229260 11 (n (n (n l 2980068980700672 7
    l) 34998771781744128 2 l) 35001202611598860 10 (n (n l 35062074260338188 8 l) 35064601406092800
    4 l))))
def codes0_185 : List Nat × Tree := ([1521685729654272, 1458493326374400, 34998771781744140,
    1460809494443532, 35064601406092800, 65939699676684, 1521896707339788, 2980068980700684,
    35062074260338188, 63513456293376, 35001202611598848, 2980064394229248], (n (n (n (n l
    63513456293376 9 l) 65939699676684 5 (n l 1458493326374400 1 l)) 1460809494443532 3 (n (n l
    1521685729654272 0 l) 1521896707339788 6 l)) 2980064394229248 11 (n (n (n l 2980068980700684 7
    l) 34998771781744140 2 l) 35001202611598848 10 (n (n l 35062074260338188 8 l) 35064601406092800
    4 l))))
def codes0_186 : List Nat × Tree := ([1521685729654272, 1458493326374400, 34998771781744140,
    1460809494443520, 35064601406092800, 65939699676684, 1521896707339776, 2980068980700684,
    35062074260338176, 63513456293388, 35001202611598860, 2980064394229260], (n (n (n (n l
    63513456293388 9 l) 65939699676684 5 (n l 1458493326374400 1 l)) 1460809494443520 3 (n (n l
    1521685729654272 0 l) 1521896707339776 6 l)) 2980064394229260 11 (n (n (n l 2980068980700684 7
    l) 34998771781744140 2 l) 35001202611598860 10 (n (n l 35062074260338176 8 l) 35064601406092800
    4 l))))
def codes0_187 : List Nat × Tree := ([1521685729654272, 1458493326374400, 1521685729958400,
    1460809494443520, 35064601406092800, 1458493326678528, 1521896707339776, 35064601406396928,
    35062074260338176, 1460809494747648, 1521896707643904, 35062074260642304], (n (n (n (n l
    1458493326374400 1 l) 1458493326678528 5 (n l 1460809494443520 3 l)) 1460809494747648 9 (n (n l
    1521685729654272 0 l) 1521685729958400 2 l)) 1521896707339776 6 (n (n (n l 1521896707643904 10
    l) 35062074260338176 8 l) 35062074260642304 11 (n (n l 35064601406092800 4 l) 35064601406396928
    7 l))))
def codes0_188 : List Nat × Tree := ([1521685729654272, 1458493326374400, 1521685729958412,
    1460809494443532, 35064601406092800, 1458493326678540, 1521896707339788, 35064601406396940,
    35062074260338188, 1460809494747648, 1521896707643904, 35062074260642304], (n (n (n (n l
    1458493326374400 1 l) 1458493326678540 5 (n l 1460809494443532 3 l)) 1460809494747648 9 (n (n l
    1521685729654272 0 l) 1521685729958412 2 l)) 1521896707339788 6 (n (n (n l 1521896707643904 10
    l) 35062074260338188 8 l) 35062074260642304 11 (n (n l 35064601406092800 4 l) 35064601406396940
    7 l))))
def codes0_189 : List Nat × Tree := ([1521685729654272, 1458493326374400, 1521685729958400,
    63513456597504, 35064601406092800, 1458493326678528, 35001202611902976, 35064601406396928,
    2980064394533376, 63513456293376, 35001202611598848, 2980064394229248], (n (n (n (n l
    63513456293376 9 l) 63513456597504 3 (n l 1458493326374400 1 l)) 1458493326678528 5 (n (n l
    1521685729654272 0 l) 1521685729958400 2 l)) 2980064394229248 11 (n (n (n l 2980064394533376 8
    l) 35001202611598848 10 l) 35001202611902976 6 (n (n l 35064601406092800 4 l) 35064601406396928
    7 l))))
def codes0_190 : List Nat × Tree := ([1521685729654272, 1458493326374400, 1521685729958412,
    63513456597504, 35064601406092800, 1458493326678540, 35001202611902976, 35064601406396940,
    2980064394533376, 63513456293388, 35001202611598860, 2980064394229260], (n (n (n (n l
    63513456293388 9 l) 63513456597504 3 (n l 1458493326374400 1 l)) 1458493326678540 5 (n (n l
    1521685729654272 0 l) 1521685729958412 2 l)) 2980064394229260 11 (n (n (n l 2980064394533376 8
    l) 35001202611598860 10 l) 35001202611902976 6 (n (n l 35064601406092800 4 l) 35064601406396940
    7 l))))
def codes0_191 : List Nat × Tree := ([1521685729654272, 34998771782048256, 1458493326374400,
    34998771781744128, 63513456597504, 65939699980800, 1521685729958400, 1460809494443520,
    35064601406092800, 65939699676672, 35001202611902976, 2980068981004800, 1458493326678528,
    1521896707339776, 2980068980700672, 2980064394533376, 35064601406396928, 35062074260338176,
    1460809494747648, 63513456293376, 1521896707643904, 35001202611598848, 35062074260642304,
    2980064394229248], (n (n (n (n (n l 63513456293376 19 l) 63513456597504 4 (n l 65939699676672 9
    l)) 65939699980800 5 (n (n l 1458493326374400 2 l) 1458493326678528 12 l)) 1460809494443520 7 (n
    (n (n l 1460809494747648 18 l) 1521685729654272 0 l) 1521685729958400 6 (n (n l 1521896707339776
    13 l) 1521896707643904 20 l))) 2980064394229248 23 (n (n (n (n l 2980064394533376 15 l)
    2980068980700672 14 l) 2980068981004800 11 (n (n l 34998771781744128 3 l) 34998771782048256 1
    l)) 35001202611598848 21 (n (n (n l 35001202611902976 10 l) 35062074260338176 17 l)
    35062074260642304 22 (n (n l 35064601406092800 8 l) 35064601406396928 16 l)))))
def codes0_192 : List Nat × Tree := ([1521685729654272, 34998771782048256, 1458493326374400,
    34998771781744128, 63513456597516, 65939699980800, 1521685729958400, 1460809494443532,
    35064601406092800, 65939699676672, 35001202611902988, 2980068981004800, 1458493326678528,
    1521896707339788, 2980068980700672, 2980064394533388, 35064601406396928, 35062074260338188,
    1460809494747660, 63513456293388, 1521896707643916, 35001202611598860, 35062074260642316,
    2980064394229260], (n (n (n (n (n l 63513456293388 19 l) 63513456597516 4 (n l 65939699676672 9
    l)) 65939699980800 5 (n (n l 1458493326374400 2 l) 1458493326678528 12 l)) 1460809494443532 7 (n
    (n (n l 1460809494747660 18 l) 1521685729654272 0 l) 1521685729958400 6 (n (n l 1521896707339788
    13 l) 1521896707643916 20 l))) 2980064394229260 23 (n (n (n (n l 2980064394533388 15 l)
    2980068980700672 14 l) 2980068981004800 11 (n (n l 34998771781744128 3 l) 34998771782048256 1
    l)) 35001202611598860 21 (n (n (n l 35001202611902988 10 l) 35062074260338188 17 l)
    35062074260642316 22 (n (n l 35064601406092800 8 l) 35064601406396928 16 l)))))
def codes0_193 : List Nat × Tree := ([1521685729654272, 34998771782048256, 1458493326374400,
    34998771781744140, 63513456597516, 65939699980800, 1521685729958412, 1460809494443532,
    35064601406092800, 65939699676684, 35001202611902988, 2980068981004800, 1458493326678540,
    1521896707339788, 2980068980700684, 2980064394533388, 35064601406396940, 35062074260338188,
    1460809494747648, 63513456293376, 1521896707643904, 35001202611598848, 35062074260642304,
    2980064394229248], (n (n (n (n (n l 63513456293376 19 l) 63513456597516 4 (n l 65939699676684 9
    l)) 65939699980800 5 (n (n l 1458493326374400 2 l) 1458493326678540 12 l)) 1460809494443532 7 (n
    (n (n l 1460809494747648 18 l) 1521685729654272 0 l) 1521685729958412 6 (n (n l 1521896707339788
    13 l) 1521896707643904 20 l))) 2980064394229248 23 (n (n (n (n l 2980064394533388 15 l)
    2980068980700684 14 l) 2980068981004800 11 (n (n l 34998771781744140 3 l) 34998771782048256 1
    l)) 35001202611598848 21 (n (n (n l 35001202611902988 10 l) 35062074260338188 17 l)
    35062074260642304 22 (n (n l 35064601406092800 8 l) 35064601406396940 16 l)))))
def codes0_194 : List Nat × Tree := ([1521685729654272, 34998771782048256, 1458493326374400,
    34998771781744140, 63513456597504, 65939699980800, 1521685729958412, 1460809494443520,
    35064601406092800, 65939699676684, 35001202611902976, 2980068981004800, 1458493326678540,
    1521896707339776, 2980068980700684, 2980064394533376, 35064601406396940, 35062074260338176,
    1460809494747660, 63513456293388, 1521896707643916, 35001202611598860, 35062074260642316,
    2980064394229260], (n (n (n (n (n l 63513456293388 19 l) 63513456597504 4 (n l 65939699676684 9
    l)) 65939699980800 5 (n (n l 1458493326374400 2 l) 1458493326678540 12 l)) 1460809494443520 7 (n
    (n (n l 1460809494747660 18 l) 1521685729654272 0 l) 1521685729958412 6 (n (n l 1521896707339776
    13 l) 1521896707643916 20 l))) 2980064394229260 23 (n (n (n (n l 2980064394533376 15 l)
    2980068980700684 14 l) 2980068981004800 11 (n (n l 34998771781744140 3 l) 34998771782048256 1
    l)) 35001202611598860 21 (n (n (n l 35001202611902976 10 l) 35062074260338176 17 l)
    35062074260642316 22 (n (n l 35064601406092800 8 l) 35064601406396940 16 l)))))
def codes0_195 : List Nat × Tree := ([1521685729654272, 34998771781744128, 34998670879676928,
    2751883186176, 1521786632329728, 63293305982976, 60871656370176, 5173547397120, 63403580030976,
    63407959474176, 1458282165534720, 1458278136446976], (n (n (n (n l 2751883186176 3 l)
    5173547397120 7 (n l 60871656370176 6 l)) 63293305982976 5 (n (n l 63403580030976 8 l)
    63407959474176 9 l)) 1458278136446976 11 (n (n (n l 1458282165534720 10 l) 1521685729654272 0 l)
    1521786632329728 4 (n (n l 34998670879676928 2 l) 34998771781744128 1 l))))
def codes0_196 : List Nat × Tree := ([1521685729654272, 1521685729654572, 1521685729661196,
    34998771781744128, 34998670879676928, 2751883186176, 1521685729661472, 34998771781744428,
    34998670879677228, 2751883186476, 34998771781751052, 34998670879683852, 2751883193100,
    34998771781751328, 34998670879684128, 2751883193376, 1521786632329728, 63293305982976,
    1521786632330028, 63293305983276, 1521786632336652, 63293305989900, 1521786632336928,
    63293305990176, 60871656370176, 60871656370476, 60871656377100, 60871656377376, 5173547397120,
    5173547397420, 5173547404044, 5173547404320, 63403580030976, 63403580037900, 63403580038176,
    63403580031276, 63407959474176, 63407959481100, 63407959481376, 63407959474476,
    1458282165534720, 1458282165541644, 1458282165541920, 1458282165535020, 1458278136446976,
    1458278136453900, 1458278136454176, 1458278136447276], (n (n (n (n (n (n l 2751883186176 5 l)
    2751883186476 9 (n l 2751883193100 12 l)) 2751883193376 15 (n (n l 5173547397120 28 l)
    5173547397420 29 l)) 5173547404044 30 (n (n (n l 5173547404320 31 l) 60871656370176 24 l)
    60871656370476 25 (n (n l 60871656377100 26 l) 60871656377376 27 l))) 63293305982976 17 (n (n (n
    (n l 63293305983276 19 l) 63293305989900 21 l) 63293305990176 23 (n (n l 63403580030976 32 l)
    63403580031276 35 l)) 63403580037900 33 (n (n (n l 63403580038176 34 l) 63407959474176 36 l)
    63407959474476 39 (n (n l 63407959481100 37 l) 63407959481376 38 l)))) 1458278136446976 44 (n (n
    (n (n (n l 1458278136447276 47 l) 1458278136453900 45 l) 1458278136454176 46 (n (n l
    1458282165534720 40 l) 1458282165535020 43 l)) 1458282165541644 41 (n (n (n l 1458282165541920
    42 l) 1521685729654272 0 l) 1521685729654572 1 (n (n l 1521685729661196 2 l) 1521685729661472 6
    l))) 1521786632329728 16 (n (n (n (n l 1521786632330028 18 l) 1521786632336652 20 l)
    1521786632336928 22 (n (n l 34998670879676928 4 l) 34998670879677228 8 l)) 34998670879683852 11
    (n (n (n l 34998670879684128 14 l) 34998771781744128 3 l) 34998771781744428 7 (n (n l
    34998771781751052 10 l) 34998771781751328 13 l))))))
def codes0_197 : List Nat × Tree := ([1521685729654272, 1521685729661484, 34998771781744128,
    34998670879676928, 2751883186176, 34998771781751340, 34998670879684140, 2751883193388,
    1521786632329728, 63293305982976, 1521786632336940, 63293305990188, 60871656370176,
    60871656377388, 5173547397120, 5173547404332, 63403580030976, 63403580038188, 63407959474176,
    63407959481388, 1458282165534720, 1458282165541932, 1458278136446976, 1458278136454188], (n (n
    (n (n (n l 2751883186176 4 l) 2751883193388 7 (n l 5173547397120 14 l)) 5173547404332 15 (n (n l
    60871656370176 12 l) 60871656377388 13 l)) 63293305982976 9 (n (n (n l 63293305990188 11 l)
    63403580030976 16 l) 63403580038188 17 (n (n l 63407959474176 18 l) 63407959481388 19 l)))
    1458278136446976 22 (n (n (n (n l 1458278136454188 23 l) 1458282165534720 20 l) 1458282165541932
    21 (n (n l 1521685729654272 0 l) 1521685729661484 1 l)) 1521786632329728 8 (n (n (n l
    1521786632336940 10 l) 34998670879676928 3 l) 34998670879684140 6 (n (n l 34998771781744128 2 l)
    34998771781751340 5 l)))))
def codes0_198 : List Nat × Tree := ([1521685729654272, 34998771781751052, 34998670879677228,
    2751883186176, 1521786632336928, 63293305989900, 60871656370476, 5173547404320, 63403580030976,
    63407959481376, 1458282165541644, 1458278136447276], (n (n (n (n l 2751883186176 3 l)
    5173547404320 7 (n l 60871656370476 6 l)) 63293305989900 5 (n (n l 63403580030976 8 l)
    63407959481376 9 l)) 1458278136447276 11 (n (n (n l 1458282165541644 10 l) 1521685729654272 0 l)
    1521786632336928 4 (n (n l 34998670879677228 2 l) 34998771781751052 1 l))))
def codes0_199 : List Nat × Tree := ([1521685729654272, 1521685729661484, 34998771781751052,
    34998670879677228, 2751883186176, 34998771781744416, 34998670879683840, 2751883193388,
    1521786632336928, 63293305989900, 1521786632329740, 63293305983264, 60871656370476,
    60871656377088, 5173547404320, 5173547397132, 63403580030976, 63403580038188, 63407959481376,
    63407959474188, 1458282165541644, 1458282165535008, 1458278136447276, 1458278136453888], (n (n
    (n (n (n l 2751883186176 4 l) 2751883193388 7 (n l 5173547397132 15 l)) 5173547404320 14 (n (n l
    60871656370476 12 l) 60871656377088 13 l)) 63293305983264 11 (n (n (n l 63293305989900 9 l)
    63403580030976 16 l) 63403580038188 17 (n (n l 63407959474188 19 l) 63407959481376 18 l)))
    1458278136447276 22 (n (n (n (n l 1458278136453888 23 l) 1458282165535008 21 l) 1458282165541644
    20 (n (n l 1521685729654272 0 l) 1521685729661484 1 l)) 1521786632329740 10 (n (n (n l
    1521786632336928 8 l) 34998670879677228 3 l) 34998670879683840 6 (n (n l 34998771781744416 5 l)
    34998771781751052 2 l)))))
def codes0_200 : List Nat × Tree := ([1521685729654272, 34998771782048256, 34998771781744128,
    34998670879676928, 2751883186176, 1521685729958400, 1521786632025600, 63293313282048,
    1521786632329728, 63293305982976, 34998670879372800, 2751890485248, 60871656370176,
    5173540098048, 5173547397120, 60871649071104, 63403580030976, 1458282340712448, 63407959474176,
    1458277961269248, 1458282165534720, 63403755208704, 1458278136446976, 63407784296448], (n (n (n
    (n (n l 2751883186176 4 l) 2751890485248 11 (n l 5173540098048 13 l)) 5173547397120 14 (n (n l
    60871649071104 15 l) 60871656370176 12 l)) 63293305982976 9 (n (n (n l 63293313282048 7 l)
    63403580030976 16 l) 63403755208704 21 (n (n l 63407784296448 23 l) 63407959474176 18 l)))
    1458277961269248 19 (n (n (n (n l 1458278136446976 22 l) 1458282165534720 20 l) 1458282340712448
    17 (n (n l 1521685729654272 0 l) 1521685729958400 5 l)) 1521786632025600 6 (n (n (n l
    1521786632329728 8 l) 34998670879372800 10 l) 34998670879676928 3 (n (n l 34998771781744128 2 l)
    34998771782048256 1 l)))))
def codes0_201 : List Nat × Tree := ([1521685729654272, 34998771781744128, 34998670879676928,
    2751883186176, 34998771782055468, 1521786632329728, 63293305982976, 1521685729965612,
    60871656370176, 1521786632032812, 5173547397120, 34998670879380012, 63403580030976,
    63293313289260, 63407959474176, 60871649078316, 1458282165534720, 2751890492460,
    1458278136446976, 5173540105260, 1458282340719660, 63407784303660, 1458277961276460,
    63403755215916], (n (n (n (n (n l 2751883186176 3 l) 2751890492460 17 (n l 5173540105260 19 l))
    5173547397120 10 (n (n l 60871649078316 15 l) 60871656370176 8 l)) 63293305982976 6 (n (n (n l
    63293313289260 13 l) 63403580030976 12 l) 63403755215916 23 (n (n l 63407784303660 21 l)
    63407959474176 14 l))) 1458277961276460 22 (n (n (n (n l 1458278136446976 18 l) 1458282165534720
    16 l) 1458282340719660 20 (n (n l 1521685729654272 0 l) 1521685729965612 7 l)) 1521786632032812
    9 (n (n (n l 1521786632329728 5 l) 34998670879380012 11 l) 34998670879676928 2 (n (n l
    34998771781744128 1 l) 34998771782055468 4 l)))))
def codes0_202 : List Nat × Tree := ([1521685729654272, 34998771782048256, 1521685729654572,
    1521685729661196, 34998771781744128, 34998670879676928, 2751883186176, 34998771782048556,
    34998771782055180, 1521685729958400, 1521786632025600, 63293313282048, 1521685729661472,
    34998771781744428, 34998670879677228, 2751883186476, 34998771782055456, 1521685729958700,
    1521786632025900, 63293313282348, 34998771781751052, 34998670879683852, 2751883193100,
    1521685729965324, 1521786632032524, 63293313288972, 34998771781751328, 34998670879684128,
    2751883193376, 1521685729965600, 1521786632032800, 63293313289248, 1521786632329728,
    63293305982976, 34998670879372800, 2751890485248, 1521786632330028, 63293305983276,
    34998670879373100, 2751890485548, 1521786632336652, 63293305989900, 34998670879379724,
    2751890492172, 1521786632336928, 63293305990176, 34998670879380000, 2751890492448,
    60871656370176, 5173540098048, 60871656370476, 5173540098348, 60871656377100, 5173540104972,
    60871656377376, 5173540105248, 5173547397120, 60871649071104, 5173547397420, 60871649071404,
    5173547404044, 60871649078028, 5173547404320, 60871649078304, 63403580030976, 1458282340712448,
    63403580037900, 1458282340719372, 63403580038176, 1458282340719648, 63403580031276,
    1458282340712748, 63407959474176, 1458277961269248, 63407959481100, 1458277961276172,
    63407959481376, 1458277961276448, 63407959474476, 1458277961269548, 1458282165534720,
    63403755208704, 1458282165541644, 63403755215628, 1458282165541920, 63403755215904,
    1458282165535020, 63403755209004, 1458278136446976, 63407784296448, 1458278136453900,
    63407784303372, 1458278136454176, 63407784303648, 1458278136447276, 63407784296748], (n (n (n (n
    (n (n (n l 2751883186176 6 l) 2751883186476 15 (n l 2751883193100 22 l)) 2751883193376 28 (n (n
    l 2751890485248 35 l) 2751890485548 39 l)) 2751890492172 43 (n (n (n l 2751890492448 47 l)
    5173540098048 49 l) 5173540098348 51 (n (n l 5173540104972 53 l) 5173540105248 55 l)))
    5173547397120 56 (n (n (n (n l 5173547397420 58 l) 5173547404044 60 l) 5173547404320 62 (n (n l
    60871649071104 57 l) 60871649071404 59 l)) 60871649078028 61 (n (n (n l 60871649078304 63 l)
    60871656370176 48 l) 60871656370476 50 (n (n l 60871656377100 52 l) 60871656377376 54 l))))
    63293305982976 33 (n (n (n (n (n l 63293305983276 37 l) 63293305989900 41 l) 63293305990176 45
    (n (n l 63293313282048 11 l) 63293313282348 19 l)) 63293313288972 25 (n (n (n l 63293313289248
    31 l) 63403580030976 64 l) 63403580031276 70 (n (n l 63403580037900 66 l) 63403580038176 68 l)))
    63403755208704 81 (n (n (n (n l 63403755209004 87 l) 63403755215628 83 l) 63403755215904 85 (n
    (n l 63407784296448 89 l) 63407784296748 95 l)) 63407784303372 91 (n (n (n l 63407784303648 93
    l) 63407959474176 72 l) 63407959474476 78 (n (n l 63407959481100 74 l) 63407959481376 76 l)))))
    1458277961269248 73 (n (n (n (n (n (n l 1458277961269548 79 l) 1458277961276172 75 l)
    1458277961276448 77 (n (n l 1458278136446976 88 l) 1458278136447276 94 l)) 1458278136453900 90
    (n (n (n l 1458278136454176 92 l) 1458282165534720 80 l) 1458282165535020 86 (n (n l
    1458282165541644 82 l) 1458282165541920 84 l))) 1458282340712448 65 (n (n (n (n l
    1458282340712748 71 l) 1458282340719372 67 l) 1458282340719648 69 (n (n l 1521685729654272 0 l)
    1521685729654572 2 l)) 1521685729661196 3 (n (n (n l 1521685729661472 12 l) 1521685729958400 9
    l) 1521685729958700 17 (n (n l 1521685729965324 23 l) 1521685729965600 29 l)))) 1521786632025600
    10 (n (n (n (n (n l 1521786632025900 18 l) 1521786632032524 24 l) 1521786632032800 30 (n (n l
    1521786632329728 32 l) 1521786632330028 36 l)) 1521786632336652 40 (n (n (n l 1521786632336928
    44 l) 34998670879372800 34 l) 34998670879373100 38 (n (n l 34998670879379724 42 l)
    34998670879380000 46 l))) 34998670879676928 5 (n (n (n (n l 34998670879677228 14 l)
    34998670879683852 21 l) 34998670879684128 27 (n (n l 34998771781744128 4 l) 34998771781744428 13
    l)) 34998771781751052 20 (n (n (n l 34998771781751328 26 l) 34998771782048256 1 l)
    34998771782048556 7 (n (n l 34998771782055180 8 l) 34998771782055456 16 l)))))))
def codes0_203 : List Nat × Tree := ([1521685729654272, 1521685729654572, 1521685729661196,
    34998771781744128, 34998670879676928, 2751883186176, 34998771782051862, 1521685729661472,
    34998771781744428, 34998670879677228, 2751883186476, 34998771782052162, 34998771781751052,
    34998670879683852, 2751883193100, 34998771782058786, 34998771781751328, 34998670879684128,
    2751883193376, 34998771782059062, 1521786632329728, 63293305982976, 1521685729969206,
    1521786632330028, 63293305983276, 1521685729968930, 1521786632336652, 63293305989900,
    1521685729962306, 1521786632336928, 63293305990176, 1521685729962006, 60871656370176,
    1521786632036130, 60871656370476, 1521786632036406, 60871656377100, 1521786632029206,
    60871656377376, 1521786632029506, 5173547397120, 34998670879376706, 5173547397420,
    34998670879376406, 5173547404044, 34998670879383606, 5173547404320, 34998670879383330,
    63403580030976, 63293313285654, 63403580037900, 63293313292578, 63403580038176, 63293313292854,
    63403580031276, 63293313285954, 63407959474176, 60871649075010, 63407959481100, 60871649081910,
    63407959481376, 60871649081634, 63407959474476, 60871649074710, 1458282165534720, 2751890496054,
    1458282165541644, 2751890489154, 1458282165541920, 2751890488854, 1458282165535020,
    2751890495778, 1458278136446976, 5173540108578, 1458278136453900, 5173540101654,
    1458278136454176, 5173540101954, 1458278136447276, 5173540108854, 1458282340716054,
    1458282340723254, 1458282340716354, 1458282340722978, 63407784306978, 63407784300354,
    63407784307254, 63407784300054, 1458277961273154, 1458277961279778, 1458277961272854,
    1458277961280054, 63403755219510, 63403755212310, 63403755219234, 63403755212610], (n (n (n (n
    (n (n (n l 2751883186176 5 l) 2751883186476 10 (n l 2751883193100 14 l)) 2751883193376 18 (n (n
    l 2751890488854 69 l) 2751890489154 67 l)) 2751890495778 71 (n (n (n l 2751890496054 65 l)
    5173540101654 75 l) 5173540101954 77 (n (n l 5173540108578 73 l) 5173540108854 79 l)))
    5173547397120 40 (n (n (n (n l 5173547397420 42 l) 5173547404044 44 l) 5173547404320 46 (n (n l
    60871649074710 63 l) 60871649075010 57 l)) 60871649081634 61 (n (n (n l 60871649081910 59 l)
    60871656370176 32 l) 60871656370476 34 (n (n l 60871656377100 36 l) 60871656377376 38 l))))
    63293305982976 21 (n (n (n (n (n l 63293305983276 24 l) 63293305989900 27 l) 63293305990176 30
    (n (n l 63293313285654 49 l) 63293313285954 55 l)) 63293313292578 51 (n (n (n l 63293313292854
    53 l) 63403580030976 48 l) 63403580031276 54 (n (n l 63403580037900 50 l) 63403580038176 52 l)))
    63403755212310 93 (n (n (n (n l 63403755212610 95 l) 63403755219234 94 l) 63403755219510 92 (n
    (n l 63407784300054 87 l) 63407784300354 85 l)) 63407784306978 84 (n (n (n l 63407784307254 86
    l) 63407959474176 56 l) 63407959474476 62 (n (n l 63407959481100 58 l) 63407959481376 60 l)))))
    1458277961272854 90 (n (n (n (n (n (n l 1458277961273154 88 l) 1458277961279778 89 l)
    1458277961280054 91 (n (n l 1458278136446976 72 l) 1458278136447276 78 l)) 1458278136453900 74
    (n (n (n l 1458278136454176 76 l) 1458282165534720 64 l) 1458282165535020 70 (n (n l
    1458282165541644 66 l) 1458282165541920 68 l))) 1458282340716054 80 (n (n (n (n l
    1458282340716354 82 l) 1458282340722978 83 l) 1458282340723254 81 (n (n l 1521685729654272 0 l)
    1521685729654572 1 l)) 1521685729661196 2 (n (n (n l 1521685729661472 7 l) 1521685729962006 31
    l) 1521685729962306 28 (n (n l 1521685729968930 25 l) 1521685729969206 22 l)))) 1521786632029206
    37 (n (n (n (n (n l 1521786632029506 39 l) 1521786632036130 33 l) 1521786632036406 35 (n (n l
    1521786632329728 20 l) 1521786632330028 23 l)) 1521786632336652 26 (n (n (n l 1521786632336928
    29 l) 34998670879376406 43 l) 34998670879376706 41 (n (n l 34998670879383330 47 l)
    34998670879383606 45 l))) 34998670879676928 4 (n (n (n (n l 34998670879677228 9 l)
    34998670879683852 13 l) 34998670879684128 17 (n (n l 34998771781744128 3 l) 34998771781744428 8
    l)) 34998771781751052 12 (n (n (n l 34998771781751328 16 l) 34998771782051862 6 l)
    34998771782052162 11 (n (n l 34998771782058786 15 l) 34998771782059062 19 l)))))))
def codes0_204 : List Nat × Tree := ([1521685729654272, 34998771782048256, 1521685729661484,
    34998771781744128, 34998670879676928, 2751883186176, 34998771782055468, 1521685729958400,
    1521786632025600, 63293313282048, 34998771781751340, 34998670879684140, 2751883193388,
    1521685729965612, 1521786632032812, 63293313289260, 1521786632329728, 63293305982976,
    34998670879372800, 2751890485248, 1521786632336940, 63293305990188, 34998670879380012,
    2751890492460, 60871656370176, 5173540098048, 60871656377388, 5173540105260, 5173547397120,
    60871649071104, 5173547404332, 60871649078316, 63403580030976, 1458282340712448, 63403580038188,
    1458282340719660, 63407959474176, 1458277961269248, 63407959481388, 1458277961276460,
    1458282165534720, 63403755208704, 1458282165541932, 63403755215916, 1458278136446976,
    63407784296448, 1458278136454188, 63407784303660], (n (n (n (n (n (n l 2751883186176 5 l)
    2751883193388 12 (n l 2751890485248 19 l)) 2751890492460 23 (n (n l 5173540098048 25 l)
    5173540105260 27 l)) 5173547397120 28 (n (n (n l 5173547404332 30 l) 60871649071104 29 l)
    60871649078316 31 (n (n l 60871656370176 24 l) 60871656377388 26 l))) 63293305982976 17 (n (n (n
    (n l 63293305990188 21 l) 63293313282048 9 l) 63293313289260 15 (n (n l 63403580030976 32 l)
    63403580038188 34 l)) 63403755208704 41 (n (n (n l 63403755215916 43 l) 63407784296448 45 l)
    63407784303660 47 (n (n l 63407959474176 36 l) 63407959481388 38 l)))) 1458277961269248 37 (n (n
    (n (n (n l 1458277961276460 39 l) 1458278136446976 44 l) 1458278136454188 46 (n (n l
    1458282165534720 40 l) 1458282165541932 42 l)) 1458282340712448 33 (n (n (n l 1458282340719660
    35 l) 1521685729654272 0 l) 1521685729661484 2 (n (n l 1521685729958400 7 l) 1521685729965612 13
    l))) 1521786632025600 8 (n (n (n (n l 1521786632032812 14 l) 1521786632329728 16 l)
    1521786632336940 20 (n (n l 34998670879372800 18 l) 34998670879380012 22 l)) 34998670879676928 4
    (n (n (n l 34998670879684140 11 l) 34998771781744128 3 l) 34998771781751340 10 (n (n l
    34998771782048256 1 l) 34998771782055468 6 l))))))
def codes0_205 : List Nat × Tree := ([1521685729654272, 34998771782048256, 34998771781751052,
    34998670879677228, 2751883186176, 1521685729965324, 1521786632025900, 63293313282048,
    1521786632336928, 63293305989900, 34998670879380000, 2751890492172, 60871656370476,
    5173540098348, 5173547404320, 60871649078304, 63403580030976, 1458282340712448, 63407959481376,
    1458277961276448, 1458282165541644, 63403755215628, 1458278136447276, 63407784296748], (n (n (n
    (n (n l 2751883186176 4 l) 2751890492172 11 (n l 5173540098348 13 l)) 5173547404320 14 (n (n l
    60871649078304 15 l) 60871656370476 12 l)) 63293305989900 9 (n (n (n l 63293313282048 7 l)
    63403580030976 16 l) 63403755215628 21 (n (n l 63407784296748 23 l) 63407959481376 18 l)))
    1458277961276448 19 (n (n (n (n l 1458278136447276 22 l) 1458282165541644 20 l) 1458282340712448
    17 (n (n l 1521685729654272 0 l) 1521685729965324 5 l)) 1521786632025900 6 (n (n (n l
    1521786632336928 8 l) 34998670879380000 10 l) 34998670879677228 3 (n (n l 34998771781751052 2 l)
    34998771782048256 1 l)))))
def codes0_206 : List Nat × Tree := ([1521685729654272, 34998771782048256, 1521685729661484,
    34998771781751052, 34998670879677228, 2751883186176, 34998771782055468, 1521685729965324,
    1521786632025900, 63293313282048, 34998771781744416, 34998670879683840, 2751883193388,
    1521685729958688, 1521786632032512, 63293313289260, 1521786632336928, 63293305989900,
    34998670879380000, 2751890492172, 1521786632329740, 63293305983264, 34998670879372812,
    2751890485536, 60871656370476, 5173540098348, 60871656377088, 5173540104960, 5173547404320,
    60871649078304, 5173547397132, 60871649071116, 63403580030976, 1458282340712448, 63403580038188,
    1458282340719660, 63407959481376, 1458277961276448, 63407959474188, 1458277961269260,
    1458282165541644, 63403755215628, 1458282165535008, 63403755208992, 1458278136447276,
    63407784296748, 1458278136453888, 63407784303360], (n (n (n (n (n (n l 2751883186176 5 l)
    2751883193388 12 (n l 2751890485536 23 l)) 2751890492172 19 (n (n l 5173540098348 25 l)
    5173540104960 27 l)) 5173547397132 30 (n (n (n l 5173547404320 28 l) 60871649071116 31 l)
    60871649078304 29 (n (n l 60871656370476 24 l) 60871656377088 26 l))) 63293305983264 21 (n (n (n
    (n l 63293305989900 17 l) 63293313282048 9 l) 63293313289260 15 (n (n l 63403580030976 32 l)
    63403580038188 34 l)) 63403755208992 43 (n (n (n l 63403755215628 41 l) 63407784296748 45 l)
    63407784303360 47 (n (n l 63407959474188 38 l) 63407959481376 36 l)))) 1458277961269260 39 (n (n
    (n (n (n l 1458277961276448 37 l) 1458278136447276 44 l) 1458278136453888 46 (n (n l
    1458282165535008 42 l) 1458282165541644 40 l)) 1458282340712448 33 (n (n (n l 1458282340719660
    35 l) 1521685729654272 0 l) 1521685729661484 2 (n (n l 1521685729958688 13 l) 1521685729965324 7
    l))) 1521786632025900 8 (n (n (n (n l 1521786632032512 14 l) 1521786632329740 20 l)
    1521786632336928 16 (n (n l 34998670879372812 22 l) 34998670879380000 18 l)) 34998670879677228 4
    (n (n (n l 34998670879683840 11 l) 34998771781744416 10 l) 34998771781751052 3 (n (n l
    34998771782048256 1 l) 34998771782055468 6 l))))))
def codes0_207 : List Nat × Tree := ([1521685729654272, 34998771781744128, 34998670879676928,
    2751883186176, 63513456597504, 1521786632329728, 63293305982976, 1460809494747648,
    60871656370176, 1458387837531648, 5173547397120, 65935113205248, 63403580030976, 60766167859200,
    63407959474176, 60867245408256, 1458282165534720, 2747304345600, 1458278136446976,
    2646577152000, 1521685538869248, 34998670695886848, 1521681341902848, 34998666484322304], (n (n
    (n (n (n l 2646577152000 19 l) 2747304345600 17 (n l 2751883186176 3 l)) 5173547397120 10 (n (n
    l 60766167859200 13 l) 60867245408256 15 l)) 60871656370176 8 (n (n (n l 63293305982976 6 l)
    63403580030976 12 l) 63407959474176 14 (n (n l 63513456597504 4 l) 65935113205248 11 l)))
    1458278136446976 18 (n (n (n (n l 1458282165534720 16 l) 1458387837531648 9 l) 1460809494747648
    7 (n (n l 1521681341902848 22 l) 1521685538869248 20 l)) 1521685729654272 0 (n (n (n l
    1521786632329728 5 l) 34998666484322304 23 l) 34998670695886848 21 (n (n l 34998670879676928 2
    l) 34998771781744128 1 l)))))
def codes0_208 : List Nat × Tree := ([1521685729654272, 34998771781744128, 34998670879676928,
    2751883186176, 63513456604716, 1521786632329728, 63293305982976, 1460809494754860,
    60871656370176, 1458387837538860, 5173547397120, 65935113212460, 63403580030976, 60766167866412,
    63407959474176, 60867245415468, 1458282165534720, 2747304352812, 1458278136446976,
    2646577159212, 1521685538876460, 34998670695894060, 1521681341910060, 34998666484329516], (n (n
    (n (n (n l 2646577159212 19 l) 2747304352812 17 (n l 2751883186176 3 l)) 5173547397120 10 (n (n
    l 60766167866412 13 l) 60867245415468 15 l)) 60871656370176 8 (n (n (n l 63293305982976 6 l)
    63403580030976 12 l) 63407959474176 14 (n (n l 63513456604716 4 l) 65935113212460 11 l)))
    1458278136446976 18 (n (n (n (n l 1458282165534720 16 l) 1458387837538860 9 l) 1460809494754860
    7 (n (n l 1521681341910060 22 l) 1521685538876460 20 l)) 1521685729654272 0 (n (n (n l
    1521786632329728 5 l) 34998666484329516 23 l) 34998670695894060 21 (n (n l 34998670879676928 2
    l) 34998771781744128 1 l)))))
def codes0_209 : List Nat × Tree := ([1521685729654272, 1521685729654572, 1521685729661196,
    34998771781744128, 34998670879676928, 2751883186176, 63513456597504, 1521685729661472,
    34998771781744428, 34998670879677228, 2751883186476, 63513456597804, 34998771781751052,
    34998670879683852, 2751883193100, 63513456604428, 34998771781751328, 34998670879684128,
    2751883193376, 63513456604704, 1521786632329728, 63293305982976, 1460809494747648,
    1521786632330028, 63293305983276, 1460809494747948, 1521786632336652, 63293305989900,
    1460809494754572, 1521786632336928, 63293305990176, 1460809494754848, 60871656370176,
    1458387837531648, 60871656370476, 1458387837531948, 60871656377100, 1458387837538572,
    60871656377376, 1458387837538848, 5173547397120, 65935113205248, 5173547397420, 65935113205548,
    5173547404044, 65935113212172, 5173547404320, 65935113212448, 63403580030976, 60766167859200,
    63403580037900, 60766167866124, 63403580038176, 60766167866400, 63403580031276, 60766167859500,
    63407959474176, 60867245408256, 63407959481100, 60867245415180, 63407959481376, 60867245415456,
    63407959474476, 60867245408556, 1458282165534720, 2747304345600, 1458282165541644,
    2747304352524, 1458282165541920, 2747304352800, 1458282165535020, 2747304345900,
    1458278136446976, 2646577152000, 1458278136453900, 2646577158924, 1458278136454176,
    2646577159200, 1458278136447276, 2646577152300, 1521685538869248, 1521685538876448,
    1521685538869548, 1521685538876172, 34998670695886848, 34998670695894048, 34998670695887148,
    34998670695893772, 1521681341902848, 1521681341910048, 1521681341903148, 1521681341909772,
    34998666484322304, 34998666484329504, 34998666484322604, 34998666484329228], (n (n (n (n (n (n
    (n l 2646577152000 73 l) 2646577152300 79 (n l 2646577158924 75 l)) 2646577159200 77 (n (n l
    2747304345600 65 l) 2747304345900 71 l)) 2747304352524 67 (n (n (n l 2747304352800 69 l)
    2751883186176 5 l) 2751883186476 10 (n (n l 2751883193100 14 l) 2751883193376 18 l)))
    5173547397120 40 (n (n (n (n l 5173547397420 42 l) 5173547404044 44 l) 5173547404320 46 (n (n l
    60766167859200 49 l) 60766167859500 55 l)) 60766167866124 51 (n (n (n l 60766167866400 53 l)
    60867245408256 57 l) 60867245408556 63 (n (n l 60867245415180 59 l) 60867245415456 61 l))))
    60871656370176 32 (n (n (n (n (n l 60871656370476 34 l) 60871656377100 36 l) 60871656377376 38
    (n (n l 63293305982976 21 l) 63293305983276 24 l)) 63293305989900 27 (n (n (n l 63293305990176
    30 l) 63403580030976 48 l) 63403580031276 54 (n (n l 63403580037900 50 l) 63403580038176 52 l)))
    63407959474176 56 (n (n (n (n l 63407959474476 62 l) 63407959481100 58 l) 63407959481376 60 (n
    (n l 63513456597504 6 l) 63513456597804 11 l)) 63513456604428 15 (n (n (n l 63513456604704 19 l)
    65935113205248 41 l) 65935113205548 43 (n (n l 65935113212172 45 l) 65935113212448 47 l)))))
    1458278136446976 72 (n (n (n (n (n (n l 1458278136447276 78 l) 1458278136453900 74 l)
    1458278136454176 76 (n (n l 1458282165534720 64 l) 1458282165535020 70 l)) 1458282165541644 66
    (n (n (n l 1458282165541920 68 l) 1458387837531648 33 l) 1458387837531948 35 (n (n l
    1458387837538572 37 l) 1458387837538848 39 l))) 1460809494747648 22 (n (n (n (n l
    1460809494747948 25 l) 1460809494754572 28 l) 1460809494754848 31 (n (n l 1521681341902848 88 l)
    1521681341903148 90 l)) 1521681341909772 91 (n (n (n l 1521681341910048 89 l) 1521685538869248
    80 l) 1521685538869548 82 (n (n l 1521685538876172 83 l) 1521685538876448 81 l))))
    1521685729654272 0 (n (n (n (n (n l 1521685729654572 1 l) 1521685729661196 2 l) 1521685729661472
    7 (n (n l 1521786632329728 20 l) 1521786632330028 23 l)) 1521786632336652 26 (n (n (n l
    1521786632336928 29 l) 34998666484322304 92 l) 34998666484322604 94 (n (n l 34998666484329228 95
    l) 34998666484329504 93 l))) 34998670695886848 84 (n (n (n (n l 34998670695887148 86 l)
    34998670695893772 87 l) 34998670695894048 85 (n (n l 34998670879676928 4 l) 34998670879677228 9
    l)) 34998670879683852 13 (n (n (n l 34998670879684128 17 l) 34998771781744128 3 l)
    34998771781744428 8 (n (n l 34998771781751052 12 l) 34998771781751328 16 l)))))))
def codes0_210 : List Nat × Tree := ([1521685729654272, 1521685729654572, 1521685729661196,
    34998771781744428, 34998670879684128, 2751883186176, 63513456608034, 1521685729661472,
    34998771781744128, 34998670879683852, 2751883186476, 63513456608310, 34998771781751328,
    34998670879677228, 2751883193100, 63513456601110, 34998771781751052, 34998670879676928,
    2751883193376, 63513456601410, 1521786632336652, 63293305983276, 1460809494751254,
    1521786632336928, 63293305982976, 1460809494751554, 1521786632329728, 63293305990176,
    1460809494758178, 1521786632330028, 63293305989900, 1460809494758454, 60871656377376,
    1458387837542454, 60871656377100, 1458387837542178, 60871656370476, 1458387837535554,
    60871656370176, 1458387837535254, 5173547404044, 65935113209154, 5173547404320, 65935113208854,
    5173547397120, 65935113216054, 5173547397420, 65935113215778, 63403580030976, 60766167870006,
    63403580037900, 60766167863106, 63403580038176, 60766167862806, 63403580031276, 60766167869730,
    63407959481100, 60867245411862, 63407959474176, 60867245418786, 63407959474476, 60867245419062,
    63407959481376, 60867245412162, 1458282165535020, 2747304349506, 1458282165541920,
    2747304356406, 1458282165541644, 2747304356130, 1458282165534720, 2747304349206,
    1458278136454176, 2646577162530, 1458278136447276, 2646577155606, 1458278136446976,
    2646577155906, 1458278136453900, 2646577162806, 1521685538873154, 1521685538879778,
    1521685538872854, 1521685538880054, 34998670695890454, 34998670695897654, 34998670695890754,
    34998670695897378, 1521681341913378, 1521681341906754, 1521681341913654, 1521681341906454,
    34998666484333110, 34998666484325910, 34998666484332834, 34998666484326210], (n (n (n (n (n (n
    (n l 2646577155606 75 l) 2646577155906 77 (n l 2646577162530 73 l)) 2646577162806 79 (n (n l
    2747304349206 71 l) 2747304349506 65 l)) 2747304356130 69 (n (n (n l 2747304356406 67 l)
    2751883186176 5 l) 2751883186476 10 (n (n l 2751883193100 14 l) 2751883193376 18 l)))
    5173547397120 44 (n (n (n (n l 5173547397420 46 l) 5173547404044 40 l) 5173547404320 42 (n (n l
    60766167862806 53 l) 60766167863106 51 l)) 60766167869730 55 (n (n (n l 60766167870006 49 l)
    60867245411862 57 l) 60867245412162 63 (n (n l 60867245418786 59 l) 60867245419062 61 l))))
    60871656370176 38 (n (n (n (n (n l 60871656370476 36 l) 60871656377100 34 l) 60871656377376 32
    (n (n l 63293305982976 24 l) 63293305983276 21 l)) 63293305989900 30 (n (n (n l 63293305990176
    27 l) 63403580030976 48 l) 63403580031276 54 (n (n l 63403580037900 50 l) 63403580038176 52 l)))
    63407959474176 58 (n (n (n (n l 63407959474476 60 l) 63407959481100 56 l) 63407959481376 62 (n
    (n l 63513456601110 15 l) 63513456601410 19 l)) 63513456608034 6 (n (n (n l 63513456608310 11 l)
    65935113208854 43 l) 65935113209154 41 (n (n l 65935113215778 47 l) 65935113216054 45 l)))))
    1458278136446976 76 (n (n (n (n (n (n l 1458278136447276 74 l) 1458278136453900 78 l)
    1458278136454176 72 (n (n l 1458282165534720 70 l) 1458282165535020 64 l)) 1458282165541644 68
    (n (n (n l 1458282165541920 66 l) 1458387837535254 39 l) 1458387837535554 37 (n (n l
    1458387837542178 35 l) 1458387837542454 33 l))) 1460809494751254 22 (n (n (n (n l
    1460809494751554 25 l) 1460809494758178 28 l) 1460809494758454 31 (n (n l 1521681341906454 91 l)
    1521681341906754 89 l)) 1521681341913378 88 (n (n (n l 1521681341913654 90 l) 1521685538872854
    82 l) 1521685538873154 80 (n (n l 1521685538879778 81 l) 1521685538880054 83 l))))
    1521685729654272 0 (n (n (n (n (n l 1521685729654572 1 l) 1521685729661196 2 l) 1521685729661472
    7 (n (n l 1521786632329728 26 l) 1521786632330028 29 l)) 1521786632336652 20 (n (n (n l
    1521786632336928 23 l) 34998666484325910 93 l) 34998666484326210 95 (n (n l 34998666484332834 94
    l) 34998666484333110 92 l))) 34998670695890454 84 (n (n (n (n l 34998670695890754 86 l)
    34998670695897378 87 l) 34998670695897654 85 (n (n l 34998670879676928 17 l) 34998670879677228
    13 l)) 34998670879683852 9 (n (n (n l 34998670879684128 4 l) 34998771781744128 8 l)
    34998771781744428 3 (n (n l 34998771781751052 16 l) 34998771781751328 12 l)))))))
def codes0_211 : List Nat × Tree := ([1521685729654272, 1521685729661484, 34998771781744128,
    34998670879676928, 2751883186176, 63513456597504, 34998771781751340, 34998670879684140,
    2751883193388, 63513456604716, 1521786632329728, 63293305982976, 1460809494747648,
    1521786632336940, 63293305990188, 1460809494754860, 60871656370176, 1458387837531648,
    60871656377388, 1458387837538860, 5173547397120, 65935113205248, 5173547404332, 65935113212460,
    63403580030976, 60766167859200, 63403580038188, 60766167866412, 63407959474176, 60867245408256,
    63407959481388, 60867245415468, 1458282165534720, 2747304345600, 1458282165541932,
    2747304352812, 1458278136446976, 2646577152000, 1458278136454188, 2646577159212,
    1521685538869248, 1521685538876460, 34998670695886848, 34998670695894060, 1521681341902848,
    1521681341910060, 34998666484322304, 34998666484329516], (n (n (n (n (n (n l 2646577152000 37 l)
    2646577159212 39 (n l 2747304345600 33 l)) 2747304352812 35 (n (n l 2751883186176 4 l)
    2751883193388 8 l)) 5173547397120 20 (n (n (n l 5173547404332 22 l) 60766167859200 25 l)
    60766167866412 27 (n (n l 60867245408256 29 l) 60867245415468 31 l))) 60871656370176 16 (n (n (n
    (n l 60871656377388 18 l) 63293305982976 11 l) 63293305990188 14 (n (n l 63403580030976 24 l)
    63403580038188 26 l)) 63407959474176 28 (n (n (n l 63407959481388 30 l) 63513456597504 5 l)
    63513456604716 9 (n (n l 65935113205248 21 l) 65935113212460 23 l)))) 1458278136446976 36 (n (n
    (n (n (n l 1458278136454188 38 l) 1458282165534720 32 l) 1458282165541932 34 (n (n l
    1458387837531648 17 l) 1458387837538860 19 l)) 1460809494747648 12 (n (n (n l 1460809494754860
    15 l) 1521681341902848 44 l) 1521681341910060 45 (n (n l 1521685538869248 40 l) 1521685538876460
    41 l))) 1521685729654272 0 (n (n (n (n l 1521685729661484 1 l) 1521786632329728 10 l)
    1521786632336940 13 (n (n l 34998666484322304 46 l) 34998666484329516 47 l)) 34998670695886848
    42 (n (n (n l 34998670695894060 43 l) 34998670879676928 3 l) 34998670879684140 7 (n (n l
    34998771781744128 2 l) 34998771781751340 6 l))))))
def codes0_212 : List Nat × Tree := ([1521685729654272, 34998771781751052, 34998670879677228,
    2751883186176, 63513456601410, 1521786632336928, 63293305989900, 1460809494751254,
    60871656370476, 1458387837542178, 5173547404320, 65935113216054, 63403580030976, 60766167869730,
    63407959481376, 60867245411862, 1458282165541644, 2747304356406, 1458278136447276,
    2646577155906, 1521685538880054, 34998670695890454, 1521681341906754, 34998666484332834], (n (n
    (n (n (n l 2646577155906 19 l) 2747304356406 17 (n l 2751883186176 3 l)) 5173547404320 10 (n (n
    l 60766167869730 13 l) 60867245411862 15 l)) 60871656370476 8 (n (n (n l 63293305989900 6 l)
    63403580030976 12 l) 63407959481376 14 (n (n l 63513456601410 4 l) 65935113216054 11 l)))
    1458278136447276 18 (n (n (n (n l 1458282165541644 16 l) 1458387837542178 9 l) 1460809494751254
    7 (n (n l 1521681341906754 22 l) 1521685538880054 20 l)) 1521685729654272 0 (n (n (n l
    1521786632336928 5 l) 34998666484332834 23 l) 34998670695890454 21 (n (n l 34998670879677228 2
    l) 34998771781751052 1 l)))))
def codes0_213 : List Nat × Tree := ([1521685729654272, 34998771781751052, 34998670879677228,
    2751883186176, 63513456608022, 1521786632336928, 63293305989900, 1460809494758466,
    60871656370476, 1458387837535542, 5173547404320, 65935113208866, 63403580030976, 60766167863094,
    63407959481376, 60867245419074, 1458282165541644, 2747304349218, 1458278136447276,
    2646577162518, 1521685538872866, 34998670695897666, 1521681341913366, 34998666484326198], (n (n
    (n (n (n l 2646577162518 19 l) 2747304349218 17 (n l 2751883186176 3 l)) 5173547404320 10 (n (n
    l 60766167863094 13 l) 60867245419074 15 l)) 60871656370476 8 (n (n (n l 63293305989900 6 l)
    63403580030976 12 l) 63407959481376 14 (n (n l 63513456608022 4 l) 65935113208866 11 l)))
    1458278136447276 18 (n (n (n (n l 1458282165541644 16 l) 1458387837535542 9 l) 1460809494758466
    7 (n (n l 1521681341913366 22 l) 1521685538872866 20 l)) 1521685729654272 0 (n (n (n l
    1521786632336928 5 l) 34998666484326198 23 l) 34998670695897666 21 (n (n l 34998670879677228 2
    l) 34998771781751052 1 l)))))
def codes0_214 : List Nat × Tree := ([1521685729654272, 1521685729661484, 34998771781751052,
    34998670879677228, 2751883186176, 63513456608022, 34998771781744416, 34998670879683840,
    2751883193388, 63513456601410, 1521786632336928, 63293305989900, 1460809494758466,
    1521786632329740, 63293305983264, 1460809494751254, 60871656370476, 1458387837535542,
    60871656377088, 1458387837542178, 5173547404320, 65935113208866, 5173547397132, 65935113216054,
    63403580030976, 60766167863094, 63403580038188, 60766167869730, 63407959481376, 60867245419074,
    63407959474188, 60867245411862, 1458282165541644, 2747304349218, 1458282165535008,
    2747304356406, 1458278136447276, 2646577162518, 1458278136453888, 2646577155906,
    1521685538872866, 1521685538880054, 34998670695897666, 34998670695890454, 1521681341913366,
    1521681341906754, 34998666484326198, 34998666484332834], (n (n (n (n (n (n l 2646577155906 39 l)
    2646577162518 37 (n l 2747304349218 33 l)) 2747304356406 35 (n (n l 2751883186176 4 l)
    2751883193388 8 l)) 5173547397132 22 (n (n (n l 5173547404320 20 l) 60766167863094 25 l)
    60766167869730 27 (n (n l 60867245411862 31 l) 60867245419074 29 l))) 60871656370476 16 (n (n (n
    (n l 60871656377088 18 l) 63293305983264 14 l) 63293305989900 11 (n (n l 63403580030976 24 l)
    63403580038188 26 l)) 63407959474188 30 (n (n (n l 63407959481376 28 l) 63513456601410 9 l)
    63513456608022 5 (n (n l 65935113208866 21 l) 65935113216054 23 l)))) 1458278136447276 36 (n (n
    (n (n (n l 1458278136453888 38 l) 1458282165535008 34 l) 1458282165541644 32 (n (n l
    1458387837535542 17 l) 1458387837542178 19 l)) 1460809494751254 15 (n (n (n l 1460809494758466
    12 l) 1521681341906754 45 l) 1521681341913366 44 (n (n l 1521685538872866 40 l) 1521685538880054
    41 l))) 1521685729654272 0 (n (n (n (n l 1521685729661484 1 l) 1521786632329740 13 l)
    1521786632336928 10 (n (n l 34998666484326198 46 l) 34998666484332834 47 l)) 34998670695890454
    43 (n (n (n l 34998670695897666 42 l) 34998670879677228 3 l) 34998670879683840 7 (n (n l
    34998771781744416 6 l) 34998771781751052 2 l))))))
def codes0_215 : List Nat × Tree := ([1521685729654272, 34998771781744128, 34998670879676928,
    2751883186176, 63513456293376, 1521786632329728, 63293305982976, 1460809494443520,
    60871656370176, 1458387837835776, 5173547397120, 65935113509376, 63403580030976, 2646401974272,
    63407959474176, 2747479523328, 1458282165534720, 60867070230528, 1458278136446976,
    60766343036928, 1521681334603776, 34998666491621376, 1521685546168320, 34998670688587776], (n (n
    (n (n (n l 2646401974272 13 l) 2747479523328 15 (n l 2751883186176 3 l)) 5173547397120 10 (n (n
    l 60766343036928 19 l) 60867070230528 17 l)) 60871656370176 8 (n (n (n l 63293305982976 6 l)
    63403580030976 12 l) 63407959474176 14 (n (n l 63513456293376 4 l) 65935113509376 11 l)))
    1458278136446976 18 (n (n (n (n l 1458282165534720 16 l) 1458387837835776 9 l) 1460809494443520
    7 (n (n l 1521681334603776 20 l) 1521685546168320 22 l)) 1521685729654272 0 (n (n (n l
    1521786632329728 5 l) 34998666491621376 21 l) 34998670688587776 23 (n (n l 34998670879676928 2
    l) 34998771781744128 1 l)))))
def codes0_216 : List Nat × Tree := ([1521685729654272, 1521685729654572, 1521685729661196,
    34998771781744128, 34998670879676928, 2751883186176, 63513456293376, 1521685729661472,
    34998771781744428, 34998670879677228, 2751883186476, 63513456293676, 34998771781751052,
    34998670879683852, 2751883193100, 63513456300300, 34998771781751328, 34998670879684128,
    2751883193376, 63513456300576, 1521786632329728, 63293305982976, 1460809494443520,
    1521786632330028, 63293305983276, 1460809494443820, 1521786632336652, 63293305989900,
    1460809494450444, 1521786632336928, 63293305990176, 1460809494450720, 60871656370176,
    1458387837835776, 60871656370476, 1458387837836076, 60871656377100, 1458387837842700,
    60871656377376, 1458387837842976, 5173547397120, 65935113509376, 5173547397420, 65935113509676,
    5173547404044, 65935113516300, 5173547404320, 65935113516576, 63403580030976, 2646401974272,
    63403580037900, 2646401981196, 63403580038176, 2646401981472, 63403580031276, 2646401974572,
    63407959474176, 2747479523328, 63407959481100, 2747479530252, 63407959481376, 2747479530528,
    63407959474476, 2747479523628, 1458282165534720, 60867070230528, 1458282165541644,
    60867070237452, 1458282165541920, 60867070237728, 1458282165535020, 60867070230828,
    1458278136446976, 60766343036928, 1458278136453900, 60766343043852, 1458278136454176,
    60766343044128, 1458278136447276, 60766343037228, 1521681334603776, 1521681334610976,
    1521681334604076, 1521681334610700, 34998666491621376, 34998666491628576, 34998666491621676,
    34998666491628300, 1521685546168320, 1521685546175520, 1521685546168620, 1521685546175244,
    34998670688587776, 34998670688594976, 34998670688588076, 34998670688594700], (n (n (n (n (n (n
    (n l 2646401974272 49 l) 2646401974572 55 (n l 2646401981196 51 l)) 2646401981472 53 (n (n l
    2747479523328 57 l) 2747479523628 63 l)) 2747479530252 59 (n (n (n l 2747479530528 61 l)
    2751883186176 5 l) 2751883186476 10 (n (n l 2751883193100 14 l) 2751883193376 18 l)))
    5173547397120 40 (n (n (n (n l 5173547397420 42 l) 5173547404044 44 l) 5173547404320 46 (n (n l
    60766343036928 73 l) 60766343037228 79 l)) 60766343043852 75 (n (n (n l 60766343044128 77 l)
    60867070230528 65 l) 60867070230828 71 (n (n l 60867070237452 67 l) 60867070237728 69 l))))
    60871656370176 32 (n (n (n (n (n l 60871656370476 34 l) 60871656377100 36 l) 60871656377376 38
    (n (n l 63293305982976 21 l) 63293305983276 24 l)) 63293305989900 27 (n (n (n l 63293305990176
    30 l) 63403580030976 48 l) 63403580031276 54 (n (n l 63403580037900 50 l) 63403580038176 52 l)))
    63407959474176 56 (n (n (n (n l 63407959474476 62 l) 63407959481100 58 l) 63407959481376 60 (n
    (n l 63513456293376 6 l) 63513456293676 11 l)) 63513456300300 15 (n (n (n l 63513456300576 19 l)
    65935113509376 41 l) 65935113509676 43 (n (n l 65935113516300 45 l) 65935113516576 47 l)))))
    1458278136446976 72 (n (n (n (n (n (n l 1458278136447276 78 l) 1458278136453900 74 l)
    1458278136454176 76 (n (n l 1458282165534720 64 l) 1458282165535020 70 l)) 1458282165541644 66
    (n (n (n l 1458282165541920 68 l) 1458387837835776 33 l) 1458387837836076 35 (n (n l
    1458387837842700 37 l) 1458387837842976 39 l))) 1460809494443520 22 (n (n (n (n l
    1460809494443820 25 l) 1460809494450444 28 l) 1460809494450720 31 (n (n l 1521681334603776 80 l)
    1521681334604076 82 l)) 1521681334610700 83 (n (n (n l 1521681334610976 81 l) 1521685546168320
    88 l) 1521685546168620 90 (n (n l 1521685546175244 91 l) 1521685546175520 89 l))))
    1521685729654272 0 (n (n (n (n (n l 1521685729654572 1 l) 1521685729661196 2 l) 1521685729661472
    7 (n (n l 1521786632329728 20 l) 1521786632330028 23 l)) 1521786632336652 26 (n (n (n l
    1521786632336928 29 l) 34998666491621376 84 l) 34998666491621676 86 (n (n l 34998666491628300 87
    l) 34998666491628576 85 l))) 34998670688587776 92 (n (n (n (n l 34998670688588076 94 l)
    34998670688594700 95 l) 34998670688594976 93 (n (n l 34998670879676928 4 l) 34998670879677228 9
    l)) 34998670879683852 13 (n (n (n l 34998670879684128 17 l) 34998771781744128 3 l)
    34998771781744428 8 (n (n l 34998771781751052 12 l) 34998771781751328 16 l)))))))
def codes0_217 : List Nat × Tree := ([1521685729654272, 1521685729661484, 34998771781744128,
    34998670879676928, 2751883186176, 63513456293376, 34998771781751340, 34998670879684140,
    2751883193388, 63513456300588, 1521786632329728, 63293305982976, 1460809494443520,
    1521786632336940, 63293305990188, 1460809494450732, 60871656370176, 1458387837835776,
    60871656377388, 1458387837842988, 5173547397120, 65935113509376, 5173547404332, 65935113516588,
    63403580030976, 2646401974272, 63403580038188, 2646401981484, 63407959474176, 2747479523328,
    63407959481388, 2747479530540, 1458282165534720, 60867070230528, 1458282165541932,
    60867070237740, 1458278136446976, 60766343036928, 1458278136454188, 60766343044140,
    1521681334603776, 1521681334610988, 34998666491621376, 34998666491628588, 1521685546168320,
    1521685546175532, 34998670688587776, 34998670688594988], (n (n (n (n (n (n l 2646401974272 25 l)
    2646401981484 27 (n l 2747479523328 29 l)) 2747479530540 31 (n (n l 2751883186176 4 l)
    2751883193388 8 l)) 5173547397120 20 (n (n (n l 5173547404332 22 l) 60766343036928 37 l)
    60766343044140 39 (n (n l 60867070230528 33 l) 60867070237740 35 l))) 60871656370176 16 (n (n (n
    (n l 60871656377388 18 l) 63293305982976 11 l) 63293305990188 14 (n (n l 63403580030976 24 l)
    63403580038188 26 l)) 63407959474176 28 (n (n (n l 63407959481388 30 l) 63513456293376 5 l)
    63513456300588 9 (n (n l 65935113509376 21 l) 65935113516588 23 l)))) 1458278136446976 36 (n (n
    (n (n (n l 1458278136454188 38 l) 1458282165534720 32 l) 1458282165541932 34 (n (n l
    1458387837835776 17 l) 1458387837842988 19 l)) 1460809494443520 12 (n (n (n l 1460809494450732
    15 l) 1521681334603776 40 l) 1521681334610988 41 (n (n l 1521685546168320 44 l) 1521685546175532
    45 l))) 1521685729654272 0 (n (n (n (n l 1521685729661484 1 l) 1521786632329728 10 l)
    1521786632336940 13 (n (n l 34998666491621376 42 l) 34998666491628588 43 l)) 34998670688587776
    46 (n (n (n l 34998670688594988 47 l) 34998670879676928 3 l) 34998670879684140 7 (n (n l
    34998771781744128 2 l) 34998771781751340 6 l))))))
def codes0_218 : List Nat × Tree := ([1521685729654272, 34998771781744128, 34998670879676928,
    2751883186176, 63513456300588, 1521786632329728, 63293305982976, 1460809494450732,
    60871656370176, 1458387837842988, 5173547397120, 65935113516588, 63403580030976, 2646401981484,
    63407959474176, 2747479530540, 1458282165534720, 60867070237740, 1458278136446976,
    60766343044140, 1521681334610988, 34998666491628588, 1521685546175532, 34998670688594988], (n (n
    (n (n (n l 2646401981484 13 l) 2747479530540 15 (n l 2751883186176 3 l)) 5173547397120 10 (n (n
    l 60766343044140 19 l) 60867070237740 17 l)) 60871656370176 8 (n (n (n l 63293305982976 6 l)
    63403580030976 12 l) 63407959474176 14 (n (n l 63513456300588 4 l) 65935113516588 11 l)))
    1458278136446976 18 (n (n (n (n l 1458282165534720 16 l) 1458387837842988 9 l) 1460809494450732
    7 (n (n l 1521681334610988 20 l) 1521685546175532 22 l)) 1521685729654272 0 (n (n (n l
    1521786632329728 5 l) 34998666491628588 21 l) 34998670688594988 23 (n (n l 34998670879676928 2
    l) 34998771781744128 1 l)))))
def codes0_219 : List Nat × Tree := ([1521685729654272, 1521685729654572, 1521685729661196,
    34998771781744128, 34998670879676928, 2751883186176, 63513456300588, 1521685729661472,
    34998771781744428, 34998670879677228, 2751883186476, 63513456300288, 34998771781751052,
    34998670879683852, 2751883193100, 63513456293664, 34998771781751328, 34998670879684128,
    2751883193376, 63513456293388, 1521786632329728, 63293305982976, 1460809494450732,
    1521786632330028, 63293305983276, 1460809494450432, 1521786632336652, 63293305989900,
    1460809494443808, 1521786632336928, 63293305990176, 1460809494443532, 60871656370176,
    1458387837842988, 60871656370476, 1458387837842688, 60871656377100, 1458387837836064,
    60871656377376, 1458387837835788, 5173547397120, 65935113516588, 5173547397420, 65935113516288,
    5173547404044, 65935113509664, 5173547404320, 65935113509388, 63403580030976, 2646401981484,
    63403580037900, 2646401974560, 63403580038176, 2646401974284, 63403580031276, 2646401981184,
    63407959474176, 2747479530540, 63407959481100, 2747479523616, 63407959481376, 2747479523340,
    63407959474476, 2747479530240, 1458282165534720, 60867070237740, 1458282165541644,
    60867070230816, 1458282165541920, 60867070230540, 1458282165535020, 60867070237440,
    1458278136446976, 60766343044140, 1458278136453900, 60766343037216, 1458278136454176,
    60766343036940, 1458278136447276, 60766343043840, 1521681334610988, 1521681334603788,
    1521681334610688, 1521681334604064, 34998666491628588, 34998666491621388, 34998666491628288,
    34998666491621664, 1521685546175532, 1521685546168332, 1521685546175232, 1521685546168608,
    34998670688594988, 34998670688587788, 34998670688594688, 34998670688588064], (n (n (n (n (n (n
    (n l 2646401974284 53 l) 2646401974560 51 (n l 2646401981184 55 l)) 2646401981484 49 (n (n l
    2747479523340 61 l) 2747479523616 59 l)) 2747479530240 63 (n (n (n l 2747479530540 57 l)
    2751883186176 5 l) 2751883186476 10 (n (n l 2751883193100 14 l) 2751883193376 18 l)))
    5173547397120 40 (n (n (n (n l 5173547397420 42 l) 5173547404044 44 l) 5173547404320 46 (n (n l
    60766343036940 77 l) 60766343037216 75 l)) 60766343043840 79 (n (n (n l 60766343044140 73 l)
    60867070230540 69 l) 60867070230816 67 (n (n l 60867070237440 71 l) 60867070237740 65 l))))
    60871656370176 32 (n (n (n (n (n l 60871656370476 34 l) 60871656377100 36 l) 60871656377376 38
    (n (n l 63293305982976 21 l) 63293305983276 24 l)) 63293305989900 27 (n (n (n l 63293305990176
    30 l) 63403580030976 48 l) 63403580031276 54 (n (n l 63403580037900 50 l) 63403580038176 52 l)))
    63407959474176 56 (n (n (n (n l 63407959474476 62 l) 63407959481100 58 l) 63407959481376 60 (n
    (n l 63513456293388 19 l) 63513456293664 15 l)) 63513456300288 11 (n (n (n l 63513456300588 6 l)
    65935113509388 47 l) 65935113509664 45 (n (n l 65935113516288 43 l) 65935113516588 41 l)))))
    1458278136446976 72 (n (n (n (n (n (n l 1458278136447276 78 l) 1458278136453900 74 l)
    1458278136454176 76 (n (n l 1458282165534720 64 l) 1458282165535020 70 l)) 1458282165541644 66
    (n (n (n l 1458282165541920 68 l) 1458387837835788 39 l) 1458387837836064 37 (n (n l
    1458387837842688 35 l) 1458387837842988 33 l))) 1460809494443532 31 (n (n (n (n l
    1460809494443808 28 l) 1460809494450432 25 l) 1460809494450732 22 (n (n l 1521681334603788 81 l)
    1521681334604064 83 l)) 1521681334610688 82 (n (n (n l 1521681334610988 80 l) 1521685546168332
    89 l) 1521685546168608 91 (n (n l 1521685546175232 90 l) 1521685546175532 88 l))))
    1521685729654272 0 (n (n (n (n (n l 1521685729654572 1 l) 1521685729661196 2 l) 1521685729661472
    7 (n (n l 1521786632329728 20 l) 1521786632330028 23 l)) 1521786632336652 26 (n (n (n l
    1521786632336928 29 l) 34998666491621388 85 l) 34998666491621664 87 (n (n l 34998666491628288 86
    l) 34998666491628588 84 l))) 34998670688587788 93 (n (n (n (n l 34998670688588064 95 l)
    34998670688594688 94 l) 34998670688594988 92 (n (n l 34998670879676928 4 l) 34998670879677228 9
    l)) 34998670879683852 13 (n (n (n l 34998670879684128 17 l) 34998771781744128 3 l)
    34998771781744428 8 (n (n l 34998771781751052 12 l) 34998771781751328 16 l)))))))
def codes0_220 : List Nat × Tree := ([1521685729654272, 1521685729661484, 34998771781751052,
    34998670879677228, 2751883186176, 63513456296982, 34998771781744416, 34998670879683840,
    2751883193388, 63513456304194, 1521786632336928, 63293305989900, 1460809494447426,
    1521786632329740, 63293305983264, 1460809494454038, 60871656370476, 1458387837846582,
    60871656377088, 1458387837839394, 5173547404320, 65935113519906, 5173547397132, 65935113513270,
    63403580030976, 2646401977878, 63403580038188, 2646401985090, 63407959481376, 2747479533858,
    63407959474188, 2747479527222, 1458282165541644, 60867070234434, 1458282165535008,
    60867070241046, 1458278136447276, 60766343047734, 1458278136453888, 60766343040546,
    1521681334607382, 1521681334614594, 34998666491632182, 34998666491624994, 1521685546178850,
    1521685546172214, 34998670688591682, 34998670688598294], (n (n (n (n (n (n l 2646401977878 25 l)
    2646401985090 27 (n l 2747479527222 31 l)) 2747479533858 29 (n (n l 2751883186176 4 l)
    2751883193388 8 l)) 5173547397132 22 (n (n (n l 5173547404320 20 l) 60766343040546 39 l)
    60766343047734 37 (n (n l 60867070234434 33 l) 60867070241046 35 l))) 60871656370476 16 (n (n (n
    (n l 60871656377088 18 l) 63293305983264 14 l) 63293305989900 11 (n (n l 63403580030976 24 l)
    63403580038188 26 l)) 63407959474188 30 (n (n (n l 63407959481376 28 l) 63513456296982 5 l)
    63513456304194 9 (n (n l 65935113513270 23 l) 65935113519906 21 l)))) 1458278136447276 36 (n (n
    (n (n (n l 1458278136453888 38 l) 1458282165535008 34 l) 1458282165541644 32 (n (n l
    1458387837839394 19 l) 1458387837846582 17 l)) 1460809494447426 12 (n (n (n l 1460809494454038
    15 l) 1521681334607382 40 l) 1521681334614594 41 (n (n l 1521685546172214 45 l) 1521685546178850
    44 l))) 1521685729654272 0 (n (n (n (n l 1521685729661484 1 l) 1521786632329740 13 l)
    1521786632336928 10 (n (n l 34998666491624994 43 l) 34998666491632182 42 l)) 34998670688591682
    46 (n (n (n l 34998670688598294 47 l) 34998670879677228 3 l) 34998670879683840 7 (n (n l
    34998771781744416 6 l) 34998771781751052 2 l))))))
def codes0_221 : List Nat × Tree := ([1521685729654272, 34998771782048256, 34998771781744128,
    34998670879676928, 2751883186176, 63513456597504, 1521685729958400, 1521786632025600,
    63293313282048, 1460809494443520, 1521786632329728, 63293305982976, 1460809494747648,
    34998670879372800, 2751890485248, 63513456293376, 60871656370176, 1458387837531648,
    5173540098048, 65935113509376, 5173547397120, 65935113205248, 60871649071104, 1458387837835776,
    63403580030976, 60766167859200, 1458282340712448, 2747479523328, 63407959474176, 60867245408256,
    1458277961269248, 2646401974272, 1458282165534720, 2747304345600, 63403755208704,
    60766343036928, 1458278136446976, 2646577152000, 63407784296448, 60867070230528,
    1521685538869248, 34998666491621376, 34998670695886848, 1521681334603776, 1521681341902848,
    34998670688587776, 34998666484322304, 1521685546168320], (n (n (n (n (n (n l 2646401974272 31 l)
    2646577152000 37 (n l 2747304345600 33 l)) 2747479523328 27 (n (n l 2751883186176 4 l)
    2751890485248 14 l)) 5173540098048 18 (n (n (n l 5173547397120 20 l) 60766167859200 25 l)
    60766343036928 35 (n (n l 60867070230528 39 l) 60867245408256 29 l))) 60871649071104 22 (n (n (n
    (n l 60871656370176 16 l) 63293305982976 11 l) 63293313282048 8 (n (n l 63403580030976 24 l)
    63403755208704 34 l)) 63407784296448 38 (n (n (n l 63407959474176 28 l) 63513456293376 15 l)
    63513456597504 5 (n (n l 65935113205248 21 l) 65935113509376 19 l)))) 1458277961269248 30 (n (n
    (n (n (n l 1458278136446976 36 l) 1458282165534720 32 l) 1458282340712448 26 (n (n l
    1458387837531648 17 l) 1458387837835776 23 l)) 1460809494443520 9 (n (n (n l 1460809494747648 12
    l) 1521681334603776 43 l) 1521681341902848 44 (n (n l 1521685538869248 40 l) 1521685546168320 47
    l))) 1521685729654272 0 (n (n (n (n l 1521685729958400 6 l) 1521786632025600 7 l)
    1521786632329728 10 (n (n l 34998666484322304 46 l) 34998666491621376 41 l)) 34998670688587776
    45 (n (n (n l 34998670695886848 42 l) 34998670879372800 13 l) 34998670879676928 3 (n (n l
    34998771781744128 2 l) 34998771782048256 1 l))))))
def codes0_222 : List Nat × Tree := ([1521685729654272, 34998771781744128, 34998670879676928,
    2751883186176, 63513456597504, 34998771782055468, 1521786632329728, 63293305982976,
    1460809494747648, 1521685729965612, 60871656370176, 1458387837531648, 1521786632032812,
    5173547397120, 65935113205248, 34998670879380012, 63403580030976, 60766167859200,
    63293313289260, 63407959474176, 60867245408256, 60871649078316, 1458282165534720, 2747304345600,
    2751890492460, 1458278136446976, 2646577152000, 5173540105260, 1521685538869248,
    1458282340719660, 34998670695886848, 63407784303660, 1521681341902848, 1458277961276460,
    34998666484322304, 63403755215916, 1460809494450732, 63513456300588, 1458387837842988,
    65935113516588, 34998670688594988, 1521685546175532, 1521681334610988, 34998666491628588,
    60867070237740, 60766343044140, 2747479530540, 2646401981484], (n (n (n (n (n (n l 2646401981484
    47 l) 2646577152000 26 (n l 2747304345600 23 l)) 2747479530540 46 (n (n l 2751883186176 3 l)
    2751890492460 24 l)) 5173540105260 27 (n (n (n l 5173547397120 13 l) 60766167859200 17 l)
    60766343044140 45 (n (n l 60867070237740 44 l) 60867245408256 20 l))) 60871649078316 21 (n (n (n
    (n l 60871656370176 10 l) 63293305982976 7 l) 63293313289260 18 (n (n l 63403580030976 16 l)
    63403755215916 35 l)) 63407784303660 31 (n (n (n l 63407959474176 19 l) 63513456300588 37 l)
    63513456597504 4 (n (n l 65935113205248 14 l) 65935113516588 39 l)))) 1458277961276460 33 (n (n
    (n (n (n l 1458278136446976 25 l) 1458282165534720 22 l) 1458282340719660 29 (n (n l
    1458387837531648 11 l) 1458387837842988 38 l)) 1460809494450732 36 (n (n (n l 1460809494747648 8
    l) 1521681334610988 42 l) 1521681341902848 32 (n (n l 1521685538869248 28 l) 1521685546175532 41
    l))) 1521685729654272 0 (n (n (n (n l 1521685729965612 9 l) 1521786632032812 12 l)
    1521786632329728 6 (n (n l 34998666484322304 34 l) 34998666491628588 43 l)) 34998670688594988 40
    (n (n (n l 34998670695886848 30 l) 34998670879380012 15 l) 34998670879676928 2 (n (n l
    34998771781744128 1 l) 34998771782055468 5 l))))))
def codes0_223 : List Nat × Tree := ([1521685729654272, 34998771782048256, 34998771781744128,
    34998670879676928, 2751883186176, 63513456604716, 1521685729958400, 1521786632025600,
    63293313282048, 1460809494450732, 1521786632329728, 63293305982976, 1460809494754860,
    34998670879372800, 2751890485248, 63513456300588, 60871656370176, 1458387837538860,
    5173540098048, 65935113516588, 5173547397120, 65935113212460, 60871649071104, 1458387837842988,
    63403580030976, 60766167866412, 1458282340712448, 2747479530540, 63407959474176, 60867245415468,
    1458277961269248, 2646401981484, 1458282165534720, 2747304352812, 63403755208704,
    60766343044140, 1458278136446976, 2646577159212, 63407784296448, 60867070237740,
    1521685538876460, 34998666491628588, 34998670695894060, 1521681334610988, 1521681341910060,
    34998670688594988, 34998666484329516, 1521685546175532], (n (n (n (n (n (n l 2646401981484 31 l)
    2646577159212 37 (n l 2747304352812 33 l)) 2747479530540 27 (n (n l 2751883186176 4 l)
    2751890485248 14 l)) 5173540098048 18 (n (n (n l 5173547397120 20 l) 60766167866412 25 l)
    60766343044140 35 (n (n l 60867070237740 39 l) 60867245415468 29 l))) 60871649071104 22 (n (n (n
    (n l 60871656370176 16 l) 63293305982976 11 l) 63293313282048 8 (n (n l 63403580030976 24 l)
    63403755208704 34 l)) 63407784296448 38 (n (n (n l 63407959474176 28 l) 63513456300588 15 l)
    63513456604716 5 (n (n l 65935113212460 21 l) 65935113516588 19 l)))) 1458277961269248 30 (n (n
    (n (n (n l 1458278136446976 36 l) 1458282165534720 32 l) 1458282340712448 26 (n (n l
    1458387837538860 17 l) 1458387837842988 23 l)) 1460809494450732 9 (n (n (n l 1460809494754860 12
    l) 1521681334610988 43 l) 1521681341910060 44 (n (n l 1521685538876460 40 l) 1521685546175532 47
    l))) 1521685729654272 0 (n (n (n (n l 1521685729958400 6 l) 1521786632025600 7 l)
    1521786632329728 10 (n (n l 34998666484329516 46 l) 34998666491628588 41 l)) 34998670688594988
    45 (n (n (n l 34998670695894060 42 l) 34998670879372800 13 l) 34998670879676928 3 (n (n l
    34998771781744128 2 l) 34998771782048256 1 l))))))
def codes0_224 : List Nat × Tree := ([1521685729654272, 34998771781744128, 34998670879676928,
    2751883186176, 63513456604716, 34998771782055468, 1521786632329728, 63293305982976,
    1460809494754860, 1521685729965612, 60871656370176, 1458387837538860, 1521786632032812,
    5173547397120, 65935113212460, 34998670879380012, 63403580030976, 60766167866412,
    63293313289260, 63407959474176, 60867245415468, 60871649078316, 1458282165534720, 2747304352812,
    2751890492460, 1458278136446976, 2646577159212, 5173540105260, 1521685538876460,
    1458282340719660, 34998670695894060, 63407784303660, 1521681341910060, 1458277961276460,
    34998666484329516, 63403755215916, 1460809494443520, 63513456293376, 1458387837835776,
    65935113509376, 34998670688587776, 1521685546168320, 1521681334603776, 34998666491621376,
    60867070230528, 60766343036928, 2747479523328, 2646401974272], (n (n (n (n (n (n l 2646401974272
    47 l) 2646577159212 26 (n l 2747304352812 23 l)) 2747479523328 46 (n (n l 2751883186176 3 l)
    2751890492460 24 l)) 5173540105260 27 (n (n (n l 5173547397120 13 l) 60766167866412 17 l)
    60766343036928 45 (n (n l 60867070230528 44 l) 60867245415468 20 l))) 60871649078316 21 (n (n (n
    (n l 60871656370176 10 l) 63293305982976 7 l) 63293313289260 18 (n (n l 63403580030976 16 l)
    63403755215916 35 l)) 63407784303660 31 (n (n (n l 63407959474176 19 l) 63513456293376 37 l)
    63513456604716 4 (n (n l 65935113212460 14 l) 65935113509376 39 l)))) 1458277961276460 33 (n (n
    (n (n (n l 1458278136446976 25 l) 1458282165534720 22 l) 1458282340719660 29 (n (n l
    1458387837538860 11 l) 1458387837835776 38 l)) 1460809494443520 36 (n (n (n l 1460809494754860 8
    l) 1521681334603776 42 l) 1521681341910060 32 (n (n l 1521685538876460 28 l) 1521685546168320 41
    l))) 1521685729654272 0 (n (n (n (n l 1521685729965612 9 l) 1521786632032812 12 l)
    1521786632329728 6 (n (n l 34998666484329516 34 l) 34998666491621376 43 l)) 34998670688587776 40
    (n (n (n l 34998670695894060 30 l) 34998670879380012 15 l) 34998670879676928 2 (n (n l
    34998771781744128 1 l) 34998771782055468 5 l))))))
def codes0_225 : List Nat × Tree := ([1521685729654272, 34998771782048256, 1521685729654572,
    1521685729661196, 34998771781744128, 34998670879676928, 2751883186176, 63513456597504,
    34998771782048556, 34998771782055180, 1521685729958400, 1521786632025600, 63293313282048,
    1460809494443520, 1521685729661472, 34998771781744428, 34998670879677228, 2751883186476,
    63513456597804, 34998771782055456, 1521685729958700, 1521786632025900, 63293313282348,
    1460809494443820, 34998771781751052, 34998670879683852, 2751883193100, 63513456604428,
    1521685729965324, 1521786632032524, 63293313288972, 1460809494450444, 34998771781751328,
    34998670879684128, 2751883193376, 63513456604704, 1521685729965600, 1521786632032800,
    63293313289248, 1460809494450720, 1521786632329728, 63293305982976, 1460809494747648,
    34998670879372800, 2751890485248, 63513456293376, 1521786632330028, 63293305983276,
    1460809494747948, 34998670879373100, 2751890485548, 63513456293676, 1521786632336652,
    63293305989900, 1460809494754572, 34998670879379724, 2751890492172, 63513456300300,
    1521786632336928, 63293305990176, 1460809494754848, 34998670879380000, 2751890492448,
    63513456300576, 60871656370176, 1458387837531648, 5173540098048, 65935113509376, 60871656370476,
    1458387837531948, 5173540098348, 65935113509676, 60871656377100, 1458387837538572,
    5173540104972, 65935113516300, 60871656377376, 1458387837538848, 5173540105248, 65935113516576,
    5173547397120, 65935113205248, 60871649071104, 1458387837835776, 5173547397420, 65935113205548,
    60871649071404, 1458387837836076, 5173547404044, 65935113212172, 60871649078028,
    1458387837842700, 5173547404320, 65935113212448, 60871649078304, 1458387837842976,
    63403580030976, 60766167859200, 1458282340712448, 2747479523328, 63403580037900, 60766167866124,
    1458282340719372, 2747479530252, 63403580038176, 60766167866400, 1458282340719648,
    2747479530528, 63403580031276, 60766167859500, 1458282340712748, 2747479523628, 63407959474176,
    60867245408256, 1458277961269248, 2646401974272, 63407959481100, 60867245415180,
    1458277961276172, 2646401981196, 63407959481376, 60867245415456, 1458277961276448,
    2646401981472, 63407959474476, 60867245408556, 1458277961269548, 2646401974572,
    1458282165534720, 2747304345600, 63403755208704, 60766343036928, 1458282165541644,
    2747304352524, 63403755215628, 60766343043852, 1458282165541920, 2747304352800, 63403755215904,
    60766343044128, 1458282165535020, 2747304345900, 63403755209004, 60766343037228,
    1458278136446976, 2646577152000, 63407784296448, 60867070230528, 1458278136453900,
    2646577158924, 63407784303372, 60867070237452, 1458278136454176, 2646577159200, 63407784303648,
    60867070237728, 1458278136447276, 2646577152300, 63407784296748, 60867070230828,
    1521685538869248, 34998666491621376, 1521685538876448, 34998666491628576, 1521685538869548,
    34998666491621676, 1521685538876172, 34998666491628300, 34998670695886848, 1521681334603776,
    34998670695894048, 1521681334610976, 34998670695887148, 1521681334604076, 34998670695893772,
    1521681334610700, 1521681341902848, 34998670688587776, 1521681341910048, 34998670688594976,
    1521681341903148, 34998670688588076, 1521681341909772, 34998670688594700, 34998666484322304,
    1521685546168320, 34998666484329504, 1521685546175520, 34998666484322604, 1521685546168620,
    34998666484329228, 1521685546175244], (n (n (n (n (n (n (n (n l 2646401974272 115 l)
    2646401974572 127 (n l 2646401981196 119 l)) 2646401981472 123 (n (n l 2646577152000 145 l)
    2646577152300 157 l)) 2646577158924 149 (n (n (n l 2646577159200 153 l) 2747304345600 129 l)
    2747304345900 141 (n (n l 2747304352524 133 l) 2747304352800 137 l))) 2747479523328 99 (n (n (n
    (n l 2747479523628 111 l) 2747479530252 103 l) 2747479530528 107 (n (n l 2751883186176 6 l)
    2751883186476 17 l)) 2751883193100 26 (n (n (n l 2751883193376 34 l) 2751890485248 44 l)
    2751890485548 50 (n (n l 2751890492172 56 l) 2751890492448 62 l)))) 5173540098048 66 (n (n (n (n
    (n l 5173540098348 70 l) 5173540104972 74 l) 5173540105248 78 (n (n l 5173547397120 80 l)
    5173547397420 84 l)) 5173547404044 88 (n (n (n l 5173547404320 92 l) 60766167859200 97 l)
    60766167859500 109 (n (n l 60766167866124 101 l) 60766167866400 105 l))) 60766343036928 131 (n
    (n (n (n l 60766343037228 143 l) 60766343043852 135 l) 60766343044128 139 (n (n l 60867070230528
    147 l) 60867070230828 159 l)) 60867070237452 151 (n (n (n l 60867070237728 155 l) 60867245408256
    113 l) 60867245408556 125 (n (n l 60867245415180 117 l) 60867245415456 121 l))))) 60871649071104
    82 (n (n (n (n (n (n l 60871649071404 86 l) 60871649078028 90 l) 60871649078304 94 (n (n l
    60871656370176 64 l) 60871656370476 68 l)) 60871656377100 72 (n (n (n l 60871656377376 76 l)
    63293305982976 41 l) 63293305983276 47 (n (n l 63293305989900 53 l) 63293305990176 59 l)))
    63293313282048 12 (n (n (n (n l 63293313282348 22 l) 63293313288972 30 l) 63293313289248 38 (n
    (n l 63403580030976 96 l) 63403580031276 108 l)) 63403580037900 100 (n (n (n l 63403580038176
    104 l) 63403755208704 130 l) 63403755209004 142 (n (n l 63403755215628 134 l) 63403755215904 138
    l)))) 63407784296448 146 (n (n (n (n (n l 63407784296748 158 l) 63407784303372 150 l)
    63407784303648 154 (n (n l 63407959474176 112 l) 63407959474476 124 l)) 63407959481100 116 (n (n
    (n l 63407959481376 120 l) 63513456293376 45 l) 63513456293676 51 (n (n l 63513456300300 57 l)
    63513456300576 63 l))) 63513456597504 7 (n (n (n (n l 63513456597804 18 l) 63513456604428 27 l)
    63513456604704 35 (n (n l 65935113205248 81 l) 65935113205548 85 l)) 65935113212172 89 (n (n (n
    l 65935113212448 93 l) 65935113509376 67 l) 65935113509676 71 (n (n l 65935113516300 75 l)
    65935113516576 79 l)))))) 1458277961269248 114 (n (n (n (n (n (n (n l 1458277961269548 126 l)
    1458277961276172 118 l) 1458277961276448 122 (n (n l 1458278136446976 144 l) 1458278136447276
    156 l)) 1458278136453900 148 (n (n (n l 1458278136454176 152 l) 1458282165534720 128 l)
    1458282165535020 140 (n (n l 1458282165541644 132 l) 1458282165541920 136 l))) 1458282340712448
    98 (n (n (n (n l 1458282340712748 110 l) 1458282340719372 102 l) 1458282340719648 106 (n (n l
    1458387837531648 65 l) 1458387837531948 69 l)) 1458387837538572 73 (n (n (n l 1458387837538848
    77 l) 1458387837835776 83 l) 1458387837836076 87 (n (n l 1458387837842700 91 l) 1458387837842976
    95 l)))) 1460809494443520 13 (n (n (n (n (n l 1460809494443820 23 l) 1460809494450444 31 l)
    1460809494450720 39 (n (n l 1460809494747648 42 l) 1460809494747948 48 l)) 1460809494754572 54
    (n (n (n l 1460809494754848 60 l) 1521681334603776 169 l) 1521681334604076 173 (n (n l
    1521681334610700 175 l) 1521681334610976 171 l))) 1521681341902848 176 (n (n (n (n l
    1521681341903148 180 l) 1521681341909772 182 l) 1521681341910048 178 (n (n l 1521685538869248
    160 l) 1521685538869548 164 l)) 1521685538876172 166 (n (n (n l 1521685538876448 162 l)
    1521685546168320 185 l) 1521685546168620 189 (n (n l 1521685546175244 191 l) 1521685546175520
    187 l))))) 1521685729654272 0 (n (n (n (n (n (n l 1521685729654572 2 l) 1521685729661196 3 l)
    1521685729661472 14 (n (n l 1521685729958400 10 l) 1521685729958700 20 l)) 1521685729965324 28
    (n (n (n l 1521685729965600 36 l) 1521786632025600 11 l) 1521786632025900 21 (n (n l
    1521786632032524 29 l) 1521786632032800 37 l))) 1521786632329728 40 (n (n (n (n l
    1521786632330028 46 l) 1521786632336652 52 l) 1521786632336928 58 (n (n l 34998666484322304 184
    l) 34998666484322604 188 l)) 34998666484329228 190 (n (n (n l 34998666484329504 186 l)
    34998666491621376 161 l) 34998666491621676 165 (n (n l 34998666491628300 167 l)
    34998666491628576 163 l)))) 34998670688587776 177 (n (n (n (n (n l 34998670688588076 181 l)
    34998670688594700 183 l) 34998670688594976 179 (n (n l 34998670695886848 168 l)
    34998670695887148 172 l)) 34998670695893772 174 (n (n (n l 34998670695894048 170 l)
    34998670879372800 43 l) 34998670879373100 49 (n (n l 34998670879379724 55 l) 34998670879380000
    61 l))) 34998670879676928 5 (n (n (n (n l 34998670879677228 16 l) 34998670879683852 25 l)
    34998670879684128 33 (n (n l 34998771781744128 4 l) 34998771781744428 15 l)) 34998771781751052
    24 (n (n (n l 34998771781751328 32 l) 34998771782048256 1 l) 34998771782048556 8 (n (n l
    34998771782055180 9 l) 34998771782055456 19 l))))))))
def codes0_226 : List Nat × Tree := ([1521685729654272, 34998771782048256, 1521685729654572,
    1521685729661196, 34998771781744128, 34998670879676928, 2751883186176, 63513456604716,
    34998771782048556, 34998771782055180, 1521685729958400, 1521786632025600, 63293313282048,
    1460809494450732, 1521685729661472, 34998771781744428, 34998670879677228, 2751883186476,
    63513456604416, 34998771782055456, 1521685729958700, 1521786632025900, 63293313282348,
    1460809494450432, 34998771781751052, 34998670879683852, 2751883193100, 63513456597792,
    1521685729965324, 1521786632032524, 63293313288972, 1460809494443808, 34998771781751328,
    34998670879684128, 2751883193376, 63513456597516, 1521685729965600, 1521786632032800,
    63293313289248, 1460809494443532, 1521786632329728, 63293305982976, 1460809494754860,
    34998670879372800, 2751890485248, 63513456300588, 1521786632330028, 63293305983276,
    1460809494754560, 34998670879373100, 2751890485548, 63513456300288, 1521786632336652,
    63293305989900, 1460809494747936, 34998670879379724, 2751890492172, 63513456293664,
    1521786632336928, 63293305990176, 1460809494747660, 34998670879380000, 2751890492448,
    63513456293388, 60871656370176, 1458387837538860, 5173540098048, 65935113516588, 60871656370476,
    1458387837538560, 5173540098348, 65935113516288, 60871656377100, 1458387837531936,
    5173540104972, 65935113509664, 60871656377376, 1458387837531660, 5173540105248, 65935113509388,
    5173547397120, 65935113212460, 60871649071104, 1458387837842988, 5173547397420, 65935113212160,
    60871649071404, 1458387837842688, 5173547404044, 65935113205536, 60871649078028,
    1458387837836064, 5173547404320, 65935113205260, 60871649078304, 1458387837835788,
    63403580030976, 60766167866412, 1458282340712448, 2747479530540, 63403580037900, 60766167859488,
    1458282340719372, 2747479523616, 63403580038176, 60766167859212, 1458282340719648,
    2747479523340, 63403580031276, 60766167866112, 1458282340712748, 2747479530240, 63407959474176,
    60867245415468, 1458277961269248, 2646401981484, 63407959481100, 60867245408544,
    1458277961276172, 2646401974560, 63407959481376, 60867245408268, 1458277961276448,
    2646401974284, 63407959474476, 60867245415168, 1458277961269548, 2646401981184,
    1458282165534720, 2747304352812, 63403755208704, 60766343044140, 1458282165541644,
    2747304345888, 63403755215628, 60766343037216, 1458282165541920, 2747304345612, 63403755215904,
    60766343036940, 1458282165535020, 2747304352512, 63403755209004, 60766343043840,
    1458278136446976, 2646577159212, 63407784296448, 60867070237740, 1458278136453900,
    2646577152288, 63407784303372, 60867070230816, 1458278136454176, 2646577152012, 63407784303648,
    60867070230540, 1458278136447276, 2646577158912, 63407784296748, 60867070237440,
    1521685538876460, 34998666491628588, 1521685538869260, 34998666491621388, 1521685538876160,
    34998666491628288, 1521685538869536, 34998666491621664, 34998670695894060, 1521681334610988,
    34998670695886860, 1521681334603788, 34998670695893760, 1521681334610688, 34998670695887136,
    1521681334604064, 1521681341910060, 34998670688594988, 1521681341902860, 34998670688587788,
    1521681341909760, 34998670688594688, 1521681341903136, 34998670688588064, 34998666484329516,
    1521685546175532, 34998666484322316, 1521685546168332, 34998666484329216, 1521685546175232,
    34998666484322592, 1521685546168608], (n (n (n (n (n (n (n (n l 2646401974284 123 l)
    2646401974560 119 (n l 2646401981184 127 l)) 2646401981484 115 (n (n l 2646577152012 153 l)
    2646577152288 149 l)) 2646577158912 157 (n (n (n l 2646577159212 145 l) 2747304345612 137 l)
    2747304345888 133 (n (n l 2747304352512 141 l) 2747304352812 129 l))) 2747479523340 107 (n (n (n
    (n l 2747479523616 103 l) 2747479530240 111 l) 2747479530540 99 (n (n l 2751883186176 6 l)
    2751883186476 17 l)) 2751883193100 26 (n (n (n l 2751883193376 34 l) 2751890485248 44 l)
    2751890485548 50 (n (n l 2751890492172 56 l) 2751890492448 62 l)))) 5173540098048 66 (n (n (n (n
    (n l 5173540098348 70 l) 5173540104972 74 l) 5173540105248 78 (n (n l 5173547397120 80 l)
    5173547397420 84 l)) 5173547404044 88 (n (n (n l 5173547404320 92 l) 60766167859212 105 l)
    60766167859488 101 (n (n l 60766167866112 109 l) 60766167866412 97 l))) 60766343036940 139 (n (n
    (n (n l 60766343037216 135 l) 60766343043840 143 l) 60766343044140 131 (n (n l 60867070230540
    155 l) 60867070230816 151 l)) 60867070237440 159 (n (n (n l 60867070237740 147 l) 60867245408268
    121 l) 60867245408544 117 (n (n l 60867245415168 125 l) 60867245415468 113 l))))) 60871649071104
    82 (n (n (n (n (n (n l 60871649071404 86 l) 60871649078028 90 l) 60871649078304 94 (n (n l
    60871656370176 64 l) 60871656370476 68 l)) 60871656377100 72 (n (n (n l 60871656377376 76 l)
    63293305982976 41 l) 63293305983276 47 (n (n l 63293305989900 53 l) 63293305990176 59 l)))
    63293313282048 12 (n (n (n (n l 63293313282348 22 l) 63293313288972 30 l) 63293313289248 38 (n
    (n l 63403580030976 96 l) 63403580031276 108 l)) 63403580037900 100 (n (n (n l 63403580038176
    104 l) 63403755208704 130 l) 63403755209004 142 (n (n l 63403755215628 134 l) 63403755215904 138
    l)))) 63407784296448 146 (n (n (n (n (n l 63407784296748 158 l) 63407784303372 150 l)
    63407784303648 154 (n (n l 63407959474176 112 l) 63407959474476 124 l)) 63407959481100 116 (n (n
    (n l 63407959481376 120 l) 63513456293388 63 l) 63513456293664 57 (n (n l 63513456300288 51 l)
    63513456300588 45 l))) 63513456597516 35 (n (n (n (n l 63513456597792 27 l) 63513456604416 18 l)
    63513456604716 7 (n (n l 65935113205260 93 l) 65935113205536 89 l)) 65935113212160 85 (n (n (n l
    65935113212460 81 l) 65935113509388 79 l) 65935113509664 75 (n (n l 65935113516288 71 l)
    65935113516588 67 l)))))) 1458277961269248 114 (n (n (n (n (n (n (n l 1458277961269548 126 l)
    1458277961276172 118 l) 1458277961276448 122 (n (n l 1458278136446976 144 l) 1458278136447276
    156 l)) 1458278136453900 148 (n (n (n l 1458278136454176 152 l) 1458282165534720 128 l)
    1458282165535020 140 (n (n l 1458282165541644 132 l) 1458282165541920 136 l))) 1458282340712448
    98 (n (n (n (n l 1458282340712748 110 l) 1458282340719372 102 l) 1458282340719648 106 (n (n l
    1458387837531660 77 l) 1458387837531936 73 l)) 1458387837538560 69 (n (n (n l 1458387837538860
    65 l) 1458387837835788 95 l) 1458387837836064 91 (n (n l 1458387837842688 87 l) 1458387837842988
    83 l)))) 1460809494443532 39 (n (n (n (n (n l 1460809494443808 31 l) 1460809494450432 23 l)
    1460809494450732 13 (n (n l 1460809494747660 60 l) 1460809494747936 54 l)) 1460809494754560 48
    (n (n (n l 1460809494754860 42 l) 1521681334603788 171 l) 1521681334604064 175 (n (n l
    1521681334610688 173 l) 1521681334610988 169 l))) 1521681341902860 178 (n (n (n (n l
    1521681341903136 182 l) 1521681341909760 180 l) 1521681341910060 176 (n (n l 1521685538869260
    162 l) 1521685538869536 166 l)) 1521685538876160 164 (n (n (n l 1521685538876460 160 l)
    1521685546168332 187 l) 1521685546168608 191 (n (n l 1521685546175232 189 l) 1521685546175532
    185 l))))) 1521685729654272 0 (n (n (n (n (n (n l 1521685729654572 2 l) 1521685729661196 3 l)
    1521685729661472 14 (n (n l 1521685729958400 10 l) 1521685729958700 20 l)) 1521685729965324 28
    (n (n (n l 1521685729965600 36 l) 1521786632025600 11 l) 1521786632025900 21 (n (n l
    1521786632032524 29 l) 1521786632032800 37 l))) 1521786632329728 40 (n (n (n (n l
    1521786632330028 46 l) 1521786632336652 52 l) 1521786632336928 58 (n (n l 34998666484322316 186
    l) 34998666484322592 190 l)) 34998666484329216 188 (n (n (n l 34998666484329516 184 l)
    34998666491621388 163 l) 34998666491621664 167 (n (n l 34998666491628288 165 l)
    34998666491628588 161 l)))) 34998670688587788 179 (n (n (n (n (n l 34998670688588064 183 l)
    34998670688594688 181 l) 34998670688594988 177 (n (n l 34998670695886860 170 l)
    34998670695887136 174 l)) 34998670695893760 172 (n (n (n l 34998670695894060 168 l)
    34998670879372800 43 l) 34998670879373100 49 (n (n l 34998670879379724 55 l) 34998670879380000
    61 l))) 34998670879676928 5 (n (n (n (n l 34998670879677228 16 l) 34998670879683852 25 l)
    34998670879684128 33 (n (n l 34998771781744128 4 l) 34998771781744428 15 l)) 34998771781751052
    24 (n (n (n l 34998771781751328 32 l) 34998771782048256 1 l) 34998771782048556 8 (n (n l
    34998771782055180 9 l) 34998771782055456 19 l))))))))
def codes0_227 : List Nat × Tree := ([1521685729654272, 1521685729654572, 1521685729661196,
    34998771781744428, 34998670879684128, 2751883186176, 63513456608034, 34998771782051862,
    1521685729661472, 34998771781744128, 34998670879683852, 2751883186476, 63513456608310,
    34998771782052162, 34998771781751328, 34998670879677228, 2751883193100, 63513456601110,
    34998771782058786, 34998771781751052, 34998670879676928, 2751883193376, 63513456601410,
    34998771782059062, 1521786632336652, 63293305983276, 1460809494751254, 1521685729968930,
    1521786632336928, 63293305982976, 1460809494751554, 1521685729969206, 1521786632329728,
    63293305990176, 1460809494758178, 1521685729962006, 1521786632330028, 63293305989900,
    1460809494758454, 1521685729962306, 60871656377376, 1458387837542454, 1521786632029506,
    60871656377100, 1458387837542178, 1521786632029206, 60871656370476, 1458387837535554,
    1521786632036406, 60871656370176, 1458387837535254, 1521786632036130, 5173547404044,
    65935113209154, 34998670879383606, 5173547404320, 65935113208854, 34998670879383330,
    5173547397120, 65935113216054, 34998670879376706, 5173547397420, 65935113215778,
    34998670879376406, 63403580030976, 60766167870006, 63293313285654, 63403580037900,
    60766167863106, 63293313292578, 63403580038176, 60766167862806, 63293313292854, 63403580031276,
    60766167869730, 63293313285954, 63407959481100, 60867245411862, 60871649081910, 63407959474176,
    60867245418786, 60871649075010, 63407959474476, 60867245419062, 60871649074710, 63407959481376,
    60867245412162, 60871649081634, 1458282165535020, 2747304349506, 2751890495778,
    1458282165541920, 2747304356406, 2751890488854, 1458282165541644, 2747304356130, 2751890489154,
    1458282165534720, 2747304349206, 2751890496054, 1458278136454176, 2646577162530, 5173540101954,
    1458278136447276, 2646577155606, 5173540108854, 1458278136446976, 2646577155906, 5173540108578,
    1458278136453900, 2646577162806, 5173540101654, 1521685538873154, 1458282340716054,
    1521685538879778, 1458282340723254, 1521685538872854, 1458282340716354, 1521685538880054,
    1458282340722978, 34998670695890454, 63407784300354, 34998670695897654, 63407784306978,
    34998670695890754, 63407784300054, 34998670695897378, 63407784307254, 1521681341913378,
    1458277961280054, 1521681341906754, 1458277961272854, 1521681341913654, 1458277961279778,
    1521681341906454, 1458277961273154, 34998666484333110, 63403755219234, 34998666484325910,
    63403755212610, 34998666484332834, 63403755219510, 34998666484326210, 63403755212310,
    1460809494443820, 1460809494450720, 1460809494443520, 1460809494450444, 63513456293376,
    63513456300300, 63513456293676, 63513456300576, 1458387837842976, 1458387837836076,
    1458387837842700, 1458387837835776, 65935113516300, 65935113509376, 65935113516576,
    65935113509676, 34998670688588076, 34998670688587776, 34998670688594700, 34998670688594976,
    1521685546175244, 1521685546175520, 1521685546168620, 1521685546168320, 1521681334603776,
    1521681334604076, 1521681334610976, 1521681334610700, 34998666491628576, 34998666491628300,
    34998666491621376, 34998666491621676, 60867070230828, 60867070237452, 60867070237728,
    60867070230528, 60766343044128, 60766343036928, 60766343037228, 60766343043852, 2747479530252,
    2747479523628, 2747479523328, 2747479530528, 2646401974272, 2646401981472, 2646401981196,
    2646401974572], (n (n (n (n (n (n (n (n l 2646401974272 188 l) 2646401974572 191 (n l
    2646401981196 190 l)) 2646401981472 189 (n (n l 2646577155606 104 l) 2646577155906 107 l))
    2646577162530 101 (n (n (n l 2646577162806 110 l) 2747304349206 98 l) 2747304349506 89 (n (n l
    2747304356130 95 l) 2747304356406 92 l))) 2747479523328 186 (n (n (n (n l 2747479523628 185 l)
    2747479530252 184 l) 2747479530528 187 (n (n l 2751883186176 5 l) 2751883186476 11 l))
    2751883193100 16 (n (n (n l 2751883193376 21 l) 2751890488854 93 l) 2751890489154 96 (n (n l
    2751890495778 90 l) 2751890496054 99 l)))) 5173540101654 111 (n (n (n (n (n l 5173540101954 102
    l) 5173540108578 108 l) 5173540108854 105 (n (n l 5173547397120 58 l) 5173547397420 61 l))
    5173547404044 52 (n (n (n l 5173547404320 55 l) 60766167862806 71 l) 60766167863106 68 (n (n l
    60766167869730 74 l) 60766167870006 65 l))) 60766343036928 181 (n (n (n (n l 60766343037228 182
    l) 60766343043852 183 l) 60766343044128 180 (n (n l 60867070230528 179 l) 60867070230828 176 l))
    60867070237452 177 (n (n (n l 60867070237728 178 l) 60867245411862 77 l) 60867245412162 86 (n (n
    l 60867245418786 80 l) 60867245419062 83 l))))) 60871649074710 84 (n (n (n (n (n (n l
    60871649075010 81 l) 60871649081634 87 l) 60871649081910 78 (n (n l 60871656370176 49 l)
    60871656370476 46 l)) 60871656377100 43 (n (n (n l 60871656377376 40 l) 63293305982976 29 l)
    63293305983276 25 (n (n l 63293305989900 37 l) 63293305990176 33 l))) 63293313285654 66 (n (n (n
    (n l 63293313285954 75 l) 63293313292578 69 l) 63293313292854 72 (n (n l 63403580030976 64 l)
    63403580031276 73 l)) 63403580037900 67 (n (n (n l 63403580038176 70 l) 63403755212310 143 l)
    63403755212610 139 (n (n l 63403755219234 137 l) 63403755219510 141 l)))) 63407784300054 125 (n
    (n (n (n (n l 63407784300354 121 l) 63407784306978 123 l) 63407784307254 127 (n (n l
    63407959474176 79 l) 63407959474476 82 l)) 63407959481100 76 (n (n (n l 63407959481376 85 l)
    63513456293376 148 l) 63513456293676 150 (n (n l 63513456300300 149 l) 63513456300576 151 l)))
    63513456601110 17 (n (n (n (n l 63513456601410 22 l) 63513456608034 6 l) 63513456608310 12 (n (n
    l 65935113208854 56 l) 65935113209154 53 l)) 65935113215778 62 (n (n (n l 65935113216054 59 l)
    65935113509376 157 l) 65935113509676 159 (n (n l 65935113516300 156 l) 65935113516576 158
    l)))))) 1458277961272854 131 (n (n (n (n (n (n (n l 1458277961273154 135 l) 1458277961279778 133
    l) 1458277961280054 129 (n (n l 1458278136446976 106 l) 1458278136447276 103 l))
    1458278136453900 109 (n (n (n l 1458278136454176 100 l) 1458282165534720 97 l) 1458282165535020
    88 (n (n l 1458282165541644 94 l) 1458282165541920 91 l))) 1458282340716054 113 (n (n (n (n l
    1458282340716354 117 l) 1458282340722978 119 l) 1458282340723254 115 (n (n l 1458387837535254 50
    l) 1458387837535554 47 l)) 1458387837542178 44 (n (n (n l 1458387837542454 41 l)
    1458387837835776 155 l) 1458387837836076 153 (n (n l 1458387837842700 154 l) 1458387837842976
    152 l)))) 1460809494443520 146 (n (n (n (n (n l 1460809494443820 144 l) 1460809494450444 147 l)
    1460809494450720 145 (n (n l 1460809494751254 26 l) 1460809494751554 30 l)) 1460809494758178 34
    (n (n (n l 1460809494758454 38 l) 1521681334603776 168 l) 1521681334604076 169 (n (n l
    1521681334610700 171 l) 1521681334610976 170 l))) 1521681341906454 134 (n (n (n (n l
    1521681341906754 130 l) 1521681341913378 128 l) 1521681341913654 132 (n (n l 1521685538872854
    116 l) 1521685538873154 112 l)) 1521685538879778 114 (n (n (n l 1521685538880054 118 l)
    1521685546168320 167 l) 1521685546168620 166 (n (n l 1521685546175244 164 l) 1521685546175520
    165 l))))) 1521685729654272 0 (n (n (n (n (n (n l 1521685729654572 1 l) 1521685729661196 2 l)
    1521685729661472 8 (n (n l 1521685729962006 35 l) 1521685729962306 39 l)) 1521685729968930 27 (n
    (n (n l 1521685729969206 31 l) 1521786632029206 45 l) 1521786632029506 42 (n (n l
    1521786632036130 51 l) 1521786632036406 48 l))) 1521786632329728 32 (n (n (n (n l
    1521786632330028 36 l) 1521786632336652 24 l) 1521786632336928 28 (n (n l 34998666484325910 138
    l) 34998666484326210 142 l)) 34998666484332834 140 (n (n (n l 34998666484333110 136 l)
    34998666491621376 174 l) 34998666491621676 175 (n (n l 34998666491628300 173 l)
    34998666491628576 172 l)))) 34998670688587776 161 (n (n (n (n (n l 34998670688588076 160 l)
    34998670688594700 162 l) 34998670688594976 163 (n (n l 34998670695890454 120 l)
    34998670695890754 124 l)) 34998670695897378 126 (n (n (n l 34998670695897654 122 l)
    34998670879376406 63 l) 34998670879376706 60 (n (n l 34998670879383330 57 l) 34998670879383606
    54 l))) 34998670879676928 20 (n (n (n (n l 34998670879677228 15 l) 34998670879683852 10 l)
    34998670879684128 4 (n (n l 34998771781744128 9 l) 34998771781744428 3 l)) 34998771781751052 19
    (n (n (n l 34998771781751328 14 l) 34998771782051862 7 l) 34998771782052162 13 (n (n l
    34998771782058786 18 l) 34998771782059062 23 l))))))))
def codes0_228 : List Nat × Tree := ([1521685729654272, 1521685729654572, 1521685729661196,
    34998771781744428, 34998670879684128, 2751883186176, 63513456608034, 34998771782059074,
    1521685729661472, 34998771781744128, 34998670879683852, 2751883186476, 63513456608310,
    34998771782058774, 34998771781751328, 34998670879677228, 2751883193100, 63513456601110,
    34998771782052150, 34998771781751052, 34998670879676928, 2751883193376, 63513456601410,
    34998771782051874, 1521786632336652, 63293305983276, 1460809494751254, 1521685729962294,
    1521786632336928, 63293305982976, 1460809494751554, 1521685729962018, 1521786632329728,
    63293305990176, 1460809494758178, 1521685729969218, 1521786632330028, 63293305989900,
    1460809494758454, 1521685729968918, 60871656377376, 1458387837542454, 1521786632036118,
    60871656377100, 1458387837542178, 1521786632036418, 60871656370476, 1458387837535554,
    1521786632029218, 60871656370176, 1458387837535254, 1521786632029494, 5173547404044,
    65935113209154, 34998670879376418, 5173547404320, 65935113208854, 34998670879376694,
    5173547397120, 65935113216054, 34998670879383318, 5173547397420, 65935113215778,
    34998670879383618, 63403580030976, 60766167870006, 63293313292866, 63403580037900,
    60766167863106, 63293313285942, 63403580038176, 60766167862806, 63293313285666, 63403580031276,
    60766167869730, 63293313292566, 63407959481100, 60867245411862, 60871649074722, 63407959474176,
    60867245418786, 60871649081622, 63407959474476, 60867245419062, 60871649081922, 63407959481376,
    60867245412162, 60871649074998, 1458282165535020, 2747304349506, 2751890489142,
    1458282165541920, 2747304356406, 2751890496066, 1458282165541644, 2747304356130, 2751890495766,
    1458282165534720, 2747304349206, 2751890488866, 1458278136454176, 2646577162530, 5173540108566,
    1458278136447276, 2646577155606, 5173540101666, 1458278136446976, 2646577155906, 5173540101942,
    1458278136453900, 2646577162806, 5173540108866, 1521685538873154, 1458282340723266,
    1521685538879778, 1458282340716066, 1521685538872854, 1458282340722966, 1521685538880054,
    1458282340716342, 34998670695890454, 63407784306966, 34998670695897654, 63407784300342,
    34998670695890754, 63407784307266, 34998670695897378, 63407784300066, 1521681341913378,
    1458277961272866, 1521681341906754, 1458277961280066, 1521681341913654, 1458277961273142,
    1521681341906454, 1458277961279766, 34998666484333110, 63403755212598, 34998666484325910,
    63403755219222, 34998666484332834, 63403755212322, 34998666484326210, 63403755219522,
    1460809494450432, 1460809494443532, 1460809494450732, 1460809494443808, 63513456300588,
    63513456293664, 63513456300288, 63513456293388, 1458387837835788, 1458387837842688,
    1458387837836064, 1458387837842988, 65935113509664, 65935113516588, 65935113509388,
    65935113516288, 34998670688594688, 34998670688594988, 34998670688588064, 34998670688587788,
    1521685546168608, 1521685546168332, 1521685546175232, 1521685546175532, 1521681334610988,
    1521681334610688, 1521681334603788, 1521681334604064, 34998666491621388, 34998666491621664,
    34998666491628588, 34998666491628288, 60867070237440, 60867070230816, 60867070230540,
    60867070237740, 60766343036940, 60766343044140, 60766343043840, 60766343037216, 2747479523616,
    2747479530240, 2747479530540, 2747479523340, 2646401981484, 2646401974284, 2646401974560,
    2646401981184], (n (n (n (n (n (n (n (n l 2646401974284 189 l) 2646401974560 190 (n l
    2646401981184 191 l)) 2646401981484 188 (n (n l 2646577155606 104 l) 2646577155906 107 l))
    2646577162530 101 (n (n (n l 2646577162806 110 l) 2747304349206 98 l) 2747304349506 89 (n (n l
    2747304356130 95 l) 2747304356406 92 l))) 2747479523340 187 (n (n (n (n l 2747479523616 184 l)
    2747479530240 185 l) 2747479530540 186 (n (n l 2751883186176 5 l) 2751883186476 11 l))
    2751883193100 16 (n (n (n l 2751883193376 21 l) 2751890488866 99 l) 2751890489142 90 (n (n l
    2751890495766 96 l) 2751890496066 93 l)))) 5173540101666 105 (n (n (n (n (n l 5173540101942 108
    l) 5173540108566 102 l) 5173540108866 111 (n (n l 5173547397120 58 l) 5173547397420 61 l))
    5173547404044 52 (n (n (n l 5173547404320 55 l) 60766167862806 71 l) 60766167863106 68 (n (n l
    60766167869730 74 l) 60766167870006 65 l))) 60766343036940 180 (n (n (n (n l 60766343037216 183
    l) 60766343043840 182 l) 60766343044140 181 (n (n l 60867070230540 178 l) 60867070230816 177 l))
    60867070237440 176 (n (n (n l 60867070237740 179 l) 60867245411862 77 l) 60867245412162 86 (n (n
    l 60867245418786 80 l) 60867245419062 83 l))))) 60871649074722 78 (n (n (n (n (n (n l
    60871649074998 87 l) 60871649081622 81 l) 60871649081922 84 (n (n l 60871656370176 49 l)
    60871656370476 46 l)) 60871656377100 43 (n (n (n l 60871656377376 40 l) 63293305982976 29 l)
    63293305983276 25 (n (n l 63293305989900 37 l) 63293305990176 33 l))) 63293313285666 72 (n (n (n
    (n l 63293313285942 69 l) 63293313292566 75 l) 63293313292866 66 (n (n l 63403580030976 64 l)
    63403580031276 73 l)) 63403580037900 67 (n (n (n l 63403580038176 70 l) 63403755212322 141 l)
    63403755212598 137 (n (n l 63403755219222 139 l) 63403755219522 143 l)))) 63407784300066 127 (n
    (n (n (n (n l 63407784300342 123 l) 63407784306966 121 l) 63407784307266 125 (n (n l
    63407959474176 79 l) 63407959474476 82 l)) 63407959481100 76 (n (n (n l 63407959481376 85 l)
    63513456293388 151 l) 63513456293664 149 (n (n l 63513456300288 150 l) 63513456300588 148 l)))
    63513456601110 17 (n (n (n (n l 63513456601410 22 l) 63513456608034 6 l) 63513456608310 12 (n (n
    l 65935113208854 56 l) 65935113209154 53 l)) 65935113215778 62 (n (n (n l 65935113216054 59 l)
    65935113509388 158 l) 65935113509664 156 (n (n l 65935113516288 159 l) 65935113516588 157
    l)))))) 1458277961272866 129 (n (n (n (n (n (n (n l 1458277961273142 133 l) 1458277961279766 135
    l) 1458277961280066 131 (n (n l 1458278136446976 106 l) 1458278136447276 103 l))
    1458278136453900 109 (n (n (n l 1458278136454176 100 l) 1458282165534720 97 l) 1458282165535020
    88 (n (n l 1458282165541644 94 l) 1458282165541920 91 l))) 1458282340716066 115 (n (n (n (n l
    1458282340716342 119 l) 1458282340722966 117 l) 1458282340723266 113 (n (n l 1458387837535254 50
    l) 1458387837535554 47 l)) 1458387837542178 44 (n (n (n l 1458387837542454 41 l)
    1458387837835788 152 l) 1458387837836064 154 (n (n l 1458387837842688 153 l) 1458387837842988
    155 l)))) 1460809494443532 145 (n (n (n (n (n l 1460809494443808 147 l) 1460809494450432 144 l)
    1460809494450732 146 (n (n l 1460809494751254 26 l) 1460809494751554 30 l)) 1460809494758178 34
    (n (n (n l 1460809494758454 38 l) 1521681334603788 170 l) 1521681334604064 171 (n (n l
    1521681334610688 169 l) 1521681334610988 168 l))) 1521681341906454 134 (n (n (n (n l
    1521681341906754 130 l) 1521681341913378 128 l) 1521681341913654 132 (n (n l 1521685538872854
    116 l) 1521685538873154 112 l)) 1521685538879778 114 (n (n (n l 1521685538880054 118 l)
    1521685546168332 165 l) 1521685546168608 164 (n (n l 1521685546175232 166 l) 1521685546175532
    167 l))))) 1521685729654272 0 (n (n (n (n (n (n l 1521685729654572 1 l) 1521685729661196 2 l)
    1521685729661472 8 (n (n l 1521685729962018 31 l) 1521685729962294 27 l)) 1521685729968918 39 (n
    (n (n l 1521685729969218 35 l) 1521786632029218 48 l) 1521786632029494 51 (n (n l
    1521786632036118 42 l) 1521786632036418 45 l))) 1521786632329728 32 (n (n (n (n l
    1521786632330028 36 l) 1521786632336652 24 l) 1521786632336928 28 (n (n l 34998666484325910 138
    l) 34998666484326210 142 l)) 34998666484332834 140 (n (n (n l 34998666484333110 136 l)
    34998666491621388 172 l) 34998666491621664 173 (n (n l 34998666491628288 175 l)
    34998666491628588 174 l)))) 34998670688587788 163 (n (n (n (n (n l 34998670688588064 162 l)
    34998670688594688 160 l) 34998670688594988 161 (n (n l 34998670695890454 120 l)
    34998670695890754 124 l)) 34998670695897378 126 (n (n (n l 34998670695897654 122 l)
    34998670879376418 54 l) 34998670879376694 57 (n (n l 34998670879383318 60 l) 34998670879383618
    63 l))) 34998670879676928 20 (n (n (n (n l 34998670879677228 15 l) 34998670879683852 10 l)
    34998670879684128 4 (n (n l 34998771781744128 9 l) 34998771781744428 3 l)) 34998771781751052 19
    (n (n (n l 34998771781751328 14 l) 34998771782051874 23 l) 34998771782052150 18 (n (n l
    34998771782058774 13 l) 34998771782059074 7 l))))))))
def codes0_229 : List Nat × Tree := ([1521685729654272, 34998771782048256, 1521685729661484,
    34998771781744128, 34998670879676928, 2751883186176, 63513456597504, 34998771782055468,
    1521685729958400, 1521786632025600, 63293313282048, 1460809494443520, 34998771781751340,
    34998670879684140, 2751883193388, 63513456604716, 1521685729965612, 1521786632032812,
    63293313289260, 1460809494450732, 1521786632329728, 63293305982976, 1460809494747648,
    34998670879372800, 2751890485248, 63513456293376, 1521786632336940, 63293305990188,
    1460809494754860, 34998670879380012, 2751890492460, 63513456300588, 60871656370176,
    1458387837531648, 5173540098048, 65935113509376, 60871656377388, 1458387837538860,
    5173540105260, 65935113516588, 5173547397120, 65935113205248, 60871649071104, 1458387837835776,
    5173547404332, 65935113212460, 60871649078316, 1458387837842988, 63403580030976, 60766167859200,
    1458282340712448, 2747479523328, 63403580038188, 60766167866412, 1458282340719660,
    2747479530540, 63407959474176, 60867245408256, 1458277961269248, 2646401974272, 63407959481388,
    60867245415468, 1458277961276460, 2646401981484, 1458282165534720, 2747304345600,
    63403755208704, 60766343036928, 1458282165541932, 2747304352812, 63403755215916, 60766343044140,
    1458278136446976, 2646577152000, 63407784296448, 60867070230528, 1458278136454188,
    2646577159212, 63407784303660, 60867070237740, 1521685538869248, 34998666491621376,
    1521685538876460, 34998666491628588, 34998670695886848, 1521681334603776, 34998670695894060,
    1521681334610988, 1521681341902848, 34998670688587776, 1521681341910060, 34998670688594988,
    34998666484322304, 1521685546168320, 34998666484329516, 1521685546175532], (n (n (n (n (n (n (n
    l 2646401974272 59 l) 2646401981484 63 (n l 2646577152000 73 l)) 2646577159212 77 (n (n l
    2747304345600 65 l) 2747304352812 69 l)) 2747479523328 51 (n (n (n l 2747479530540 55 l)
    2751883186176 5 l) 2751883193388 14 (n (n l 2751890485248 24 l) 2751890492460 30 l)))
    5173540098048 34 (n (n (n (n l 5173540105260 38 l) 5173547397120 40 l) 5173547404332 44 (n (n l
    60766167859200 49 l) 60766167866412 53 l)) 60766343036928 67 (n (n (n l 60766343044140 71 l)
    60867070230528 75 l) 60867070237740 79 (n (n l 60867245408256 57 l) 60867245415468 61 l))))
    60871649071104 42 (n (n (n (n (n l 60871649078316 46 l) 60871656370176 32 l) 60871656377388 36
    (n (n l 63293305982976 21 l) 63293305990188 27 l)) 63293313282048 10 (n (n (n l 63293313289260
    18 l) 63403580030976 48 l) 63403580038188 52 (n (n l 63403755208704 66 l) 63403755215916 70 l)))
    63407784296448 74 (n (n (n (n l 63407784303660 78 l) 63407959474176 56 l) 63407959481388 60 (n
    (n l 63513456293376 25 l) 63513456300588 31 l)) 63513456597504 6 (n (n (n l 63513456604716 15 l)
    65935113205248 41 l) 65935113212460 45 (n (n l 65935113509376 35 l) 65935113516588 39 l)))))
    1458277961269248 58 (n (n (n (n (n (n l 1458277961276460 62 l) 1458278136446976 72 l)
    1458278136454188 76 (n (n l 1458282165534720 64 l) 1458282165541932 68 l)) 1458282340712448 50
    (n (n (n l 1458282340719660 54 l) 1458387837531648 33 l) 1458387837538860 37 (n (n l
    1458387837835776 43 l) 1458387837842988 47 l))) 1460809494443520 11 (n (n (n (n l
    1460809494450732 19 l) 1460809494747648 22 l) 1460809494754860 28 (n (n l 1521681334603776 85 l)
    1521681334610988 87 l)) 1521681341902848 88 (n (n (n l 1521681341910060 90 l) 1521685538869248
    80 l) 1521685538876460 82 (n (n l 1521685546168320 93 l) 1521685546175532 95 l))))
    1521685729654272 0 (n (n (n (n (n l 1521685729661484 2 l) 1521685729958400 8 l) 1521685729965612
    16 (n (n l 1521786632025600 9 l) 1521786632032812 17 l)) 1521786632329728 20 (n (n (n l
    1521786632336940 26 l) 34998666484322304 92 l) 34998666484329516 94 (n (n l 34998666491621376 81
    l) 34998666491628588 83 l))) 34998670688587776 89 (n (n (n (n l 34998670688594988 91 l)
    34998670695886848 84 l) 34998670695894060 86 (n (n l 34998670879372800 23 l) 34998670879380012
    29 l)) 34998670879676928 4 (n (n (n l 34998670879684140 13 l) 34998771781744128 3 l)
    34998771781751340 12 (n (n l 34998771782048256 1 l) 34998771782055468 7 l)))))))
def codes0_230 : List Nat × Tree := ([1521685729654272, 34998771782048256, 1521685729661484,
    34998771781751052, 34998670879677228, 2751883186176, 63513456608022, 34998771782055468,
    1521685729965324, 1521786632025900, 63293313282048, 1460809494447426, 34998771781744416,
    34998670879683840, 2751883193388, 63513456601410, 1521685729958688, 1521786632032512,
    63293313289260, 1460809494454038, 1521786632336928, 63293305989900, 1460809494758466,
    34998670879380000, 2751890492172, 63513456296982, 1521786632329740, 63293305983264,
    1460809494751254, 34998670879372812, 2751890485536, 63513456304194, 60871656370476,
    1458387837535542, 5173540098348, 65935113519906, 60871656377088, 1458387837542178,
    5173540104960, 65935113513270, 5173547404320, 65935113208866, 60871649078304, 1458387837846582,
    5173547397132, 65935113216054, 60871649071116, 1458387837839394, 63403580030976, 60766167863094,
    1458282340712448, 2747479533858, 63403580038188, 60766167869730, 1458282340719660,
    2747479527222, 63407959481376, 60867245419074, 1458277961276448, 2646401977878, 63407959474188,
    60867245411862, 1458277961269260, 2646401985090, 1458282165541644, 2747304349218,
    63403755215628, 60766343047734, 1458282165535008, 2747304356406, 63403755208992, 60766343040546,
    1458278136447276, 2646577162518, 63407784296748, 60867070234434, 1458278136453888,
    2646577155906, 63407784303360, 60867070241046, 1521685538872866, 34998666491632182,
    1521685538880054, 34998666491624994, 34998670695897666, 1521681334607382, 34998670695890454,
    1521681334614594, 1521681341913366, 34998670688591682, 1521681341906754, 34998670688598294,
    34998666484326198, 1521685546178850, 34998666484332834, 1521685546172214], (n (n (n (n (n (n (n
    l 2646401977878 59 l) 2646401985090 63 (n l 2646577155906 77 l)) 2646577162518 73 (n (n l
    2747304349218 65 l) 2747304356406 69 l)) 2747479527222 55 (n (n (n l 2747479533858 51 l)
    2751883186176 5 l) 2751883193388 14 (n (n l 2751890485536 30 l) 2751890492172 24 l)))
    5173540098348 34 (n (n (n (n l 5173540104960 38 l) 5173547397132 44 l) 5173547404320 40 (n (n l
    60766167863094 49 l) 60766167869730 53 l)) 60766343040546 71 (n (n (n l 60766343047734 67 l)
    60867070234434 75 l) 60867070241046 79 (n (n l 60867245411862 61 l) 60867245419074 57 l))))
    60871649071116 46 (n (n (n (n (n l 60871649078304 42 l) 60871656370476 32 l) 60871656377088 36
    (n (n l 63293305983264 27 l) 63293305989900 21 l)) 63293313282048 10 (n (n (n l 63293313289260
    18 l) 63403580030976 48 l) 63403580038188 52 (n (n l 63403755208992 70 l) 63403755215628 66 l)))
    63407784296748 74 (n (n (n (n l 63407784303360 78 l) 63407959474188 60 l) 63407959481376 56 (n
    (n l 63513456296982 25 l) 63513456304194 31 l)) 63513456601410 15 (n (n (n l 63513456608022 6 l)
    65935113208866 41 l) 65935113216054 45 (n (n l 65935113513270 39 l) 65935113519906 35 l)))))
    1458277961269260 62 (n (n (n (n (n (n l 1458277961276448 58 l) 1458278136447276 72 l)
    1458278136453888 76 (n (n l 1458282165535008 68 l) 1458282165541644 64 l)) 1458282340712448 50
    (n (n (n l 1458282340719660 54 l) 1458387837535542 33 l) 1458387837542178 37 (n (n l
    1458387837839394 47 l) 1458387837846582 43 l))) 1460809494447426 11 (n (n (n (n l
    1460809494454038 19 l) 1460809494751254 28 l) 1460809494758466 22 (n (n l 1521681334607382 85 l)
    1521681334614594 87 l)) 1521681341906754 90 (n (n (n l 1521681341913366 88 l) 1521685538872866
    80 l) 1521685538880054 82 (n (n l 1521685546172214 95 l) 1521685546178850 93 l))))
    1521685729654272 0 (n (n (n (n (n l 1521685729661484 2 l) 1521685729958688 16 l)
    1521685729965324 8 (n (n l 1521786632025900 9 l) 1521786632032512 17 l)) 1521786632329740 26 (n
    (n (n l 1521786632336928 20 l) 34998666484326198 92 l) 34998666484332834 94 (n (n l
    34998666491624994 83 l) 34998666491632182 81 l))) 34998670688591682 89 (n (n (n (n l
    34998670688598294 91 l) 34998670695890454 86 l) 34998670695897666 84 (n (n l 34998670879372812
    29 l) 34998670879380000 23 l)) 34998670879677228 4 (n (n (n l 34998670879683840 13 l)
    34998771781744416 12 l) 34998771781751052 3 (n (n l 34998771782048256 1 l) 34998771782055468 7
    l)))))))
def codes0_231 : List Nat × Tree := ([1521685729654272, 2751883186176, 63403580030976], (n (n l
    2751883186176 1 l) 63403580030976 2 (n l 1521685729654272 0 l)))
def codes0_232 : List Nat × Tree := ([1521685729654272, 34998771782048256, 2751883186176,
    63293313282048, 63403580030976, 1458282340712448], (n (n (n l 2751883186176 2 l) 63293313282048
    3 (n l 63403580030976 4 l)) 1458282340712448 5 (n (n l 1521685729654272 0 l) 34998771782048256 1
    l)))
def codes0_233 : List Nat × Tree := ([1521685729654272, 2751883186176, 1460809494747648,
    63403580030976, 60867245408256, 34998670695886848], (n (n (n l 2751883186176 1 l) 60867245408256
    4 (n l 63403580030976 3 l)) 1460809494747648 2 (n (n l 1521685729654272 0 l) 34998670695886848 5
    l)))
def codes0_234 : List Nat × Tree := ([1521685729654272, 2751883186176, 63513456293376,
    63403580030976, 2646401974272, 1521681334603776], (n (n (n l 2646401974272 4 l) 2751883186176 1
    (n l 63403580030976 3 l)) 63513456293376 2 (n (n l 1521681334603776 5 l) 1521685729654272 0 l)))
def codes0_235 : List Nat × Tree := ([1521685729654272, 2751883186176, 63513456300588,
    63403580030976, 2646401981484, 1521681334610988], (n (n (n l 2646401981484 4 l) 2751883186176 1
    (n l 63403580030976 3 l)) 63513456300588 2 (n (n l 1521681334610988 5 l) 1521685729654272 0 l)))
def codes0_236 : List Nat × Tree := ([1521685729654272, 34998771782048256, 2751883186176,
    1460809494747648, 63293313282048, 63513456293376, 63403580030976, 60867245408256,
    1458282340712448, 2646401974272, 34998670695886848, 1521681334603776], (n (n (n (n l
    2646401974272 9 l) 2751883186176 2 (n l 60867245408256 7 l)) 63293313282048 4 (n (n l
    63403580030976 6 l) 63513456293376 5 l)) 1458282340712448 8 (n (n (n l 1460809494747648 3 l)
    1521681334603776 11 l) 1521685729654272 0 (n (n l 34998670695886848 10 l) 34998771782048256 1
    l))))
def codes0_237 : List Nat × Tree := ([1521685729654272, 34998771782048256, 2751883186176,
    1460809494754860, 63293313282048, 63513456300588, 63403580030976, 60867245415468,
    1458282340712448, 2646401981484, 34998670695894060, 1521681334610988], (n (n (n (n l
    2646401981484 9 l) 2751883186176 2 (n l 60867245415468 7 l)) 63293313282048 4 (n (n l
    63403580030976 6 l) 63513456300588 5 l)) 1458282340712448 8 (n (n (n l 1460809494754860 3 l)
    1521681334610988 11 l) 1521685729654272 0 (n (n l 34998670695894060 10 l) 34998771782048256 1
    l))))

/-- Codes for setting 0, in the order of the space group numbers. -/
def table0 : List (List Nat × Tree) :=
[codes0_1, codes0_2, codes0_3, codes0_4, codes0_5, codes0_6, codes0_7, codes0_8, codes0_9,
    codes0_10, codes0_11, codes0_12, codes0_13, codes0_14, codes0_15, codes0_16, codes0_17,
    codes0_18, codes0_19, codes0_20, codes0_21, codes0_22, codes0_23, codes0_24, codes0_25,
    codes0_26, codes0_27, codes0_28, codes0_29, codes0_30, codes0_31, codes0_32, codes0_33,
    codes0_34, codes0_35, codes0_36, codes0_37, codes0_38, codes0_39, codes0_40, codes0_41,
    codes0_42, codes0_43, codes0_44, codes0_45, codes0_46, codes0_47, codes0_48, codes0_49,
    codes0_50, codes0_51, codes0_52, codes0_53, codes0_54, codes0_55, codes0_56, codes0_57,
    codes0_58, codes0_59, codes0_60, codes0_61, codes0_62, codes0_63, codes0_64, codes0_65,
    codes0_66, codes0_67, codes0_68, codes0_69, codes0_70, codes0_71, codes0_72, codes0_73,
    codes0_74, codes0_75, codes0_76, codes0_77, codes0_78, codes0_79, codes0_80, codes0_81,
    codes0_82, codes0_83, codes0_84, codes0_85, codes0_86, codes0_87, codes0_88, codes0_89,
    codes0_90, codes0_91, codes0_92, codes0_93, codes0_94, codes0_95, codes0_96, codes0_97,
    codes0_98, codes0_99, codes0_100, codes0_101, codes0_102, codes0_103, codes0_104, codes0_105,
    codes0_106, codes0_107, codes0_108, codes0_109, codes0_110, codes0_111, codes0_112, codes0_113,
    codes0_114, codes0_115, codes0_116, codes0_117, codes0_118, codes0_119, codes0_120, codes0_121,
    codes0_122, codes0_123, codes0_124, codes0_125, codes0_126, codes0_127, codes0_128, codes0_129,
    codes0_130, codes0_131, codes0_132, codes0_133, codes0_134, codes0_135, codes0_136, codes0_137,
    codes0_138, codes0_139, codes0_140, codes0_141, codes0_142, codes0_143, codes0_144, codes0_145,
    codes0_146, codes0_147, codes0_148, codes0_149, codes0_150, codes0_151, codes0_152, codes0_153,
    codes0_154, codes0_155, codes0_156, codes0_157, codes0_158, codes0_159, codes0_160, codes0_161,
    codes0_162, codes0_163, codes0_164, codes0_165, codes0_166, codes0_167, codes0_168, codes0_169,
    codes0_170, codes0_171, codes0_172, codes0_173, codes0_174, codes0_175, codes0_176, codes0_177,
    codes0_178, codes0_179, codes0_180, codes0_181, codes0_182, codes0_183, codes0_184, codes0_185,
    codes0_186, codes0_187, codes0_188, codes0_189, codes0_190, codes0_191, codes0_192, codes0_193,
    codes0_194, codes0_195, codes0_196, codes0_197, codes0_198, codes0_199, codes0_200, codes0_201,
    codes0_202, codes0_203, codes0_204, codes0_205, codes0_206, codes0_207, codes0_208, codes0_209,
    codes0_210, codes0_211, codes0_212, codes0_213, codes0_214, codes0_215, codes0_216, codes0_217,
    codes0_218, codes0_219, codes0_220, codes0_221, codes0_222, codes0_223, codes0_224, codes0_225,
    codes0_226, codes0_227, codes0_228, codes0_229, codes0_230, codes0_231, codes0_232, codes0_233,
    codes0_234, codes0_235, codes0_236, codes0_237]

def codes1_48 : List Nat × Tree := ([1521685729654272, 34998771781751328, 34998670879683852,
    34998771782048256, 1521786632330028, 1521685729965600, 1521786632032524, 34998670879373100], (n
    (n (n (n l 1521685729654272 0 l) 1521685729965600 5 l) 1521786632032524 6 (n l 1521786632330028
    4 l)) 34998670879373100 7 (n (n l 34998670879683852 2 l) 34998771781751328 1 (n l
    34998771782048256 3 l))))
def codes1_50 : List Nat × Tree := ([1521685729654272, 34998771781751328, 34998670879683840,
    34998771782048256, 1521786632330016, 1521685729965600, 1521786632032512, 34998670879373088], (n
    (n (n (n l 1521685729654272 0 l) 1521685729965600 5 l) 1521786632032512 6 (n l 1521786632330016
    4 l)) 34998670879373088 7 (n (n l 34998670879683840 2 l) 34998771781751328 1 (n l
    34998771782048256 3 l))))
def codes1_59 : List Nat × Tree := ([1521685729654272, 34998771781751328, 34998670879677216,
    34998771782048256, 1521786632336640, 1521685729965600, 1521786632025888, 34998670879379712], (n
    (n (n (n l 1521685729654272 0 l) 1521685729965600 5 l) 1521786632025888 6 (n l 1521786632336640
    4 l)) 34998670879379712 7 (n (n l 34998670879677216 2 l) 34998771781751328 1 (n l
    34998771782048256 3 l))))
def codes1_68 : List Nat × Tree := ([1521685729654272, 1521685729661472, 34998771781751040,
    34998670879676940, 34998771782048256, 34998771781744416, 34998670879684140, 34998771782055456,
    1521786632336652, 1521685729965312, 1521786632330028, 1521685729958688, 1521786632025612,
    1521786632032812, 34998670879379724, 34998670879373100], (n (n (n (n (n l 1521685729654272 0 l)
    1521685729661472 1 l) 1521685729958688 11 (n l 1521685729965312 9 l)) 1521786632025612 12 (n (n
    l 1521786632032812 13 l) 1521786632330028 10 (n l 1521786632336652 8 l))) 34998670879373100 15
    (n (n (n l 34998670879379724 14 l) 34998670879676940 3 (n l 34998670879684140 6 l))
    34998771781744416 5 (n (n l 34998771781751040 2 l) 34998771782048256 4 (n l 34998771782055456 7
    l)))))
def codes1_70 : List Nat × Tree := ([1521685729654272, 1521685729654572, 1521685729661196,
    34998771781754928, 34998670879687314, 34998771782048256, 1521685729661472, 34998771781754652,
    34998670879687590, 34998771782048556, 34998771781748028, 34998670879680390, 34998771782055180,
    34998771781747728, 34998670879680690, 34998771782055456, 1521786632330178, 1521685729969200,
    1521786632329878, 1521685729968924, 1521786632337078, 1521685729962300, 1521786632336802,
    1521685729962000, 1521786632035986, 1521786632036262, 1521786632029062, 1521786632029362,
    34998670879373250, 34998670879372950, 34998670879380150, 34998670879379874], (n (n (n (n (n (n l
    1521685729654272 0 l) 1521685729654572 1 l) 1521685729661196 2 (n l 1521685729661472 6 l))
    1521685729962000 23 (n (n l 1521685729962300 21 l) 1521685729968924 19 (n l 1521685729969200 17
    l))) 1521786632029062 26 (n (n (n l 1521786632029362 27 l) 1521786632035986 24 (n l
    1521786632036262 25 l)) 1521786632329878 18 (n (n l 1521786632330178 16 l) 1521786632336802 22
    (n l 1521786632337078 20 l)))) 34998670879372950 29 (n (n (n (n l 34998670879373250 28 l)
    34998670879379874 31 (n l 34998670879380150 30 l)) 34998670879680390 11 (n (n l
    34998670879680690 14 l) 34998670879687314 4 (n l 34998670879687590 8 l))) 34998771781747728 13
    (n (n (n l 34998771781748028 10 l) 34998771781754652 7 (n l 34998771781754928 3 l))
    34998771782048256 5 (n (n l 34998771782048556 9 l) 34998771782055180 12 (n l 34998771782055456
    15 l))))))
def codes1_85 : List Nat × Tree := ([1521685729654272, 34998771781751328, 1458387837538560,
    34998771782048256, 65935113205536, 1521685729965600, 65935113516288, 1458387837836064], (n (n (n
    (n l 65935113205536 4 l) 65935113516288 6 l) 1458387837538560 2 (n l 1458387837836064 7 l))
    1521685729654272 0 (n (n l 1521685729965600 5 l) 34998771781751328 1 (n l 34998771782048256 3
    l))))
def codes1_86 : List Nat × Tree := ([1521685729654272, 34998771781751328, 1458387837531948,
    34998771782048256, 65935113212172, 1521685729965600, 65935113509676, 1458387837842700], (n (n (n
    (n l 65935113212172 4 l) 65935113509676 6 l) 1458387837531948 2 (n l 1458387837842700 7 l))
    1521685729654272 0 (n (n l 1521685729965600 5 l) 34998771781751328 1 (n l 34998771782048256 3
    l))))
def codes1_88 : List Nat × Tree := ([1521685729654272, 1521685729661484, 34998771781751052,
    1458387837542166, 34998771782048256, 34998771781744416, 1458387837535554, 34998771782055468,
    65935113216066, 1521685729965324, 65935113208854, 1521685729958688, 65935113519894,
    65935113513282, 1458387837846594, 1458387837839382], (n (n (n (n (n l 65935113208854 10 l)
    65935113216066 8 l) 65935113513282 13 (n l 65935113519894 12 l)) 1458387837535554 6 (n (n l
    1458387837542166 3 l) 1458387837839382 15 (n l 1458387837846594 14 l))) 1521685729654272 0 (n (n
    (n l 1521685729661484 1 l) 1521685729958688 11 (n l 1521685729965324 9 l)) 34998771781744416 5
    (n (n l 34998771781751052 2 l) 34998771782048256 4 (n l 34998771782055468 7 l)))))
def codes1_125 : List Nat × Tree := ([1521685729654272, 34998771781751328, 1458387837538560,
    34998670879683840, 34998771782048256, 65935113205536, 1521786632330016, 1521685729965600,
    1460809494754848, 65935113516288, 63513456597504, 1458387837836064, 1521786632032512,
    34998670879373088, 1460809494443520, 63513456300576], (n (n (n (n (n l 63513456300576 15 l)
    63513456597504 10 l) 65935113205536 5 (n l 65935113516288 9 l)) 1458387837538560 2 (n (n l
    1458387837836064 11 l) 1460809494443520 14 (n l 1460809494754848 8 l))) 1521685729654272 0 (n (n
    (n l 1521685729965600 7 l) 1521786632032512 12 (n l 1521786632330016 6 l)) 34998670879373088 13
    (n (n l 34998670879683840 3 l) 34998771781751328 1 (n l 34998771782048256 4 l)))))
def codes1_126 : List Nat × Tree := ([1521685729654272, 34998771781751328, 1458387837538560,
    34998670879683852, 34998771782048256, 65935113205536, 1521786632330028, 1521685729965600,
    1460809494754860, 65935113516288, 63513456597516, 1458387837836064, 1521786632032524,
    34998670879373100, 1460809494443532, 63513456300588], (n (n (n (n (n l 63513456300588 15 l)
    63513456597516 10 l) 65935113205536 5 (n l 65935113516288 9 l)) 1458387837538560 2 (n (n l
    1458387837836064 11 l) 1460809494443532 14 (n l 1460809494754860 8 l))) 1521685729654272 0 (n (n
    (n l 1521685729965600 7 l) 1521786632032524 12 (n l 1521786632330028 6 l)) 34998670879373100 13
    (n (n l 34998670879683852 3 l) 34998771781751328 1 (n l 34998771782048256 4 l)))))
def codes1_129 : List Nat × Tree := ([1521685729654272, 34998771781751328, 1458387837538560,
    34998670879677216, 34998771782048256, 65935113205536, 1521786632336640, 1521685729965600,
    1460809494747648, 65935113516288, 63513456604704, 1458387837836064, 1521786632025888,
    34998670879379712, 1460809494450720, 63513456293376], (n (n (n (n (n l 63513456293376 15 l)
    63513456604704 10 l) 65935113205536 5 (n l 65935113516288 9 l)) 1458387837538560 2 (n (n l
    1458387837836064 11 l) 1460809494450720 14 (n l 1460809494747648 8 l))) 1521685729654272 0 (n (n
    (n l 1521685729965600 7 l) 1521786632025888 12 (n l 1521786632336640 6 l)) 34998670879379712 13
    (n (n l 34998670879677216 3 l) 34998771781751328 1 (n l 34998771782048256 4 l)))))
def codes1_130 : List Nat × Tree := ([1521685729654272, 34998771781751328, 1458387837538560,
    34998670879677228, 34998771782048256, 65935113205536, 1521786632336652, 1521685729965600,
    1460809494747660, 65935113516288, 63513456604716, 1458387837836064, 1521786632025900,
    34998670879379724, 1460809494450732, 63513456293388], (n (n (n (n (n l 63513456293388 15 l)
    63513456604716 10 l) 65935113205536 5 (n l 65935113516288 9 l)) 1458387837538560 2 (n (n l
    1458387837836064 11 l) 1460809494450732 14 (n l 1460809494747660 8 l))) 1521685729654272 0 (n (n
    (n l 1521685729965600 7 l) 1521786632025900 12 (n l 1521786632336652 6 l)) 34998670879379724 13
    (n (n l 34998670879677228 3 l) 34998771781751328 1 (n l 34998771782048256 4 l)))))
def codes1_133 : List Nat × Tree := ([1521685729654272, 34998771781751328, 1458387837538572,
    34998670879683840, 34998771782048256, 65935113205548, 1521786632330016, 1521685729965600,
    1460809494754860, 65935113516300, 63513456597516, 1458387837836076, 1521786632032512,
    34998670879373088, 1460809494443532, 63513456300588], (n (n (n (n (n l 63513456300588 15 l)
    63513456597516 10 l) 65935113205548 5 (n l 65935113516300 9 l)) 1458387837538572 2 (n (n l
    1458387837836076 11 l) 1460809494443532 14 (n l 1460809494754860 8 l))) 1521685729654272 0 (n (n
    (n l 1521685729965600 7 l) 1521786632032512 12 (n l 1521786632330016 6 l)) 34998670879373088 13
    (n (n l 34998670879683840 3 l) 34998771781751328 1 (n l 34998771782048256 4 l)))))
def codes1_134 : List Nat × Tree := ([1521685729654272, 34998771781751328, 1458387837538572,
    34998670879683852, 34998771782048256, 65935113205548, 1521786632330028, 1521685729965600,
    1460809494754848, 65935113516300, 63513456597504, 1458387837836076, 1521786632032524,
    34998670879373100, 1460809494443520, 63513456300576], (n (n (n (n (n l 63513456300576 15 l)
    63513456597504 10 l) 65935113205548 5 (n l 65935113516300 9 l)) 1458387837538572 2 (n (n l
    1458387837836076 11 l) 1460809494443520 14 (n l 1460809494754848 8 l))) 1521685729654272 0 (n (n
    (n l 1521685729965600 7 l) 1521786632032524 12 (n l 1521786632330028 6 l)) 34998670879373100 13
    (n (n l 34998670879683852 3 l) 34998771781751328 1 (n l 34998771782048256 4 l)))))
def codes1_137 : List Nat × Tree := ([1521685729654272, 34998771781751328, 1458387837538572,
    34998670879677216, 34998771782048256, 65935113205548, 1521786632336640, 1521685729965600,
    1460809494747660, 65935113516300, 63513456604716, 1458387837836076, 1521786632025888,
    34998670879379712, 1460809494450732, 63513456293388], (n (n (n (n (n l 63513456293388 15 l)
    63513456604716 10 l) 65935113205548 5 (n l 65935113516300 9 l)) 1458387837538572 2 (n (n l
    1458387837836076 11 l) 1460809494450732 14 (n l 1460809494747660 8 l))) 1521685729654272 0 (n (n
    (n l 1521685729965600 7 l) 1521786632025888 12 (n l 1521786632336640 6 l)) 34998670879379712 13
    (n (n l 34998670879677216 3 l) 34998771781751328 1 (n l 34998771782048256 4 l)))))
def codes1_138 : List Nat × Tree := ([1521685729654272, 34998771781751328, 1458387837538572,
    34998670879677228, 34998771782048256, 65935113205548, 1521786632336652, 1521685729965600,
    1460809494747648, 65935113516300, 63513456604704, 1458387837836076, 1521786632025900,
    34998670879379724, 1460809494450720, 63513456293376], (n (n (n (n (n l 63513456293376 15 l)
    63513456604704 10 l) 65935113205548 5 (n l 65935113516300 9 l)) 1458387837538572 2 (n (n l
    1458387837836076 11 l) 1460809494450720 14 (n l 1460809494747648 8 l))) 1521685729654272 0 (n (n
    (n l 1521685729965600 7 l) 1521786632025900 12 (n l 1521786632336652 6 l)) 34998670879379724 13
    (n (n l 34998670879677228 3 l) 34998771781751328 1 (n l 34998771782048256 4 l)))))
def codes1_141 : List Nat × Tree := ([1521685729654272, 1521685729661484, 34998771781751052,
    1458387837535542, 34998670879683852, 34998771782048256, 34998771781744416, 1458387837542178,
    34998670879677216, 34998771782055468, 65935113208866, 1521786632329728, 1521685729965324,
    65935113216054, 1521786632336940, 1521685729958688, 1460809494751266, 65935113513270,
    1460809494758454, 65935113519906, 63513456601398, 1458387837839394, 63513456608034,
    1458387837846582, 1521786632032524, 1521786632025888, 34998670879372800, 34998670879380012,
    1460809494447414, 1460809494454050, 63513456296994, 63513456304182], (n (n (n (n (n (n l
    63513456296994 30 l) 63513456304182 31 l) 63513456601398 20 (n l 63513456608034 22 l))
    65935113208866 10 (n (n l 65935113216054 13 l) 65935113513270 17 (n l 65935113519906 19 l)))
    1458387837535542 3 (n (n (n l 1458387837542178 7 l) 1458387837839394 21 (n l 1458387837846582 23
    l)) 1460809494447414 28 (n (n l 1460809494454050 29 l) 1460809494751266 16 (n l 1460809494758454
    18 l)))) 1521685729654272 0 (n (n (n (n l 1521685729661484 1 l) 1521685729958688 15 (n l
    1521685729965324 12 l)) 1521786632025888 25 (n (n l 1521786632032524 24 l) 1521786632329728 11
    (n l 1521786632336940 14 l))) 34998670879372800 26 (n (n (n l 34998670879380012 27 l)
    34998670879677216 8 (n l 34998670879683852 4 l)) 34998771781744416 6 (n (n l 34998771781751052 2
    l) 34998771782048256 5 (n l 34998771782055468 9 l))))))
def codes1_142 : List Nat × Tree := ([1521685729654272, 1521685729661484, 34998771781751052,
    1458387837535542, 34998670879683840, 34998771782048256, 34998771781744416, 1458387837542178,
    34998670879677228, 34998771782055468, 65935113208866, 1521786632329740, 1521685729965324,
    65935113216054, 1521786632336928, 1521685729958688, 1460809494751254, 65935113513270,
    1460809494758466, 65935113519906, 63513456601410, 1458387837839394, 63513456608022,
    1458387837846582, 1521786632032512, 1521786632025900, 34998670879372812, 34998670879380000,
    1460809494447426, 1460809494454038, 63513456296982, 63513456304194], (n (n (n (n (n (n l
    63513456296982 30 l) 63513456304194 31 l) 63513456601410 20 (n l 63513456608022 22 l))
    65935113208866 10 (n (n l 65935113216054 13 l) 65935113513270 17 (n l 65935113519906 19 l)))
    1458387837535542 3 (n (n (n l 1458387837542178 7 l) 1458387837839394 21 (n l 1458387837846582 23
    l)) 1460809494447426 28 (n (n l 1460809494454038 29 l) 1460809494751254 16 (n l 1460809494758466
    18 l)))) 1521685729654272 0 (n (n (n (n l 1521685729661484 1 l) 1521685729958688 15 (n l
    1521685729965324 12 l)) 1521786632025900 25 (n (n l 1521786632032512 24 l) 1521786632329740 11
    (n l 1521786632336928 14 l))) 34998670879372812 26 (n (n (n l 34998670879380000 27 l)
    34998670879677228 8 (n l 34998670879683840 4 l)) 34998771781744416 6 (n (n l 34998771781751052 2
    l) 34998771782048256 5 (n l 34998771782055468 9 l))))))
def codes1_201 : List Nat × Tree := ([1521685729654272, 34998771781751328, 34998670879683852,
    2751883186176, 34998771782048256, 1521786632330028, 63293305990176, 1521685729965600,
    60871656377100, 1521786632032524, 5173547397420, 34998670879373100, 63403580030976,
    63293313282048, 63407959474476, 60871649071404, 1458282165541920, 2751890492448,
    1458278136453900, 5173540104972, 1458282340712448, 63407784303372, 1458277961269548,
    63403755215904], (n (n (n (n (n l 2751883186176 3 l) 2751890492448 17 (n l 5173540104972 19 l))
    5173547397420 10 (n (n l 60871649071404 15 l) 60871656377100 8 l)) 63293305990176 6 (n (n (n l
    63293313282048 13 l) 63403580030976 12 l) 63403755215904 23 (n (n l 63407784303372 21 l)
    63407959474476 14 l))) 1458277961269548 22 (n (n (n (n l 1458278136453900 18 l) 1458282165541920
    16 l) 1458282340712448 20 (n (n l 1521685729654272 0 l) 1521685729965600 7 l)) 1521786632032524
    9 (n (n (n l 1521786632330028 5 l) 34998670879373100 11 l) 34998670879683852 2 (n (n l
    34998771781751328 1 l) 34998771782048256 4 l)))))
def codes1_203 : List Nat × Tree := ([1521685729654272, 1521685729654572, 1521685729661196,
    34998771781754928, 34998670879687314, 2751883186176, 34998771782048256, 1521685729661472,
    34998771781754652, 34998670879687590, 2751883186476, 34998771782048556, 34998771781748028,
    34998670879680390, 2751883193100, 34998771782055180, 34998771781747728, 34998670879680690,
    2751883193376, 34998771782055456, 1521786632330178, 63293305993776, 1521685729969200,
    1521786632329878, 63293305993500, 1521685729968924, 1521786632337078, 63293305986876,
    1521685729962300, 1521786632336802, 63293305986576, 1521685729962000, 60871656380562,
    1521786632035986, 60871656380838, 1521786632036262, 60871656373638, 1521786632029062,
    60871656373938, 1521786632029362, 5173547397570, 34998670879373250, 5173547397270,
    34998670879372950, 5173547404470, 34998670879380150, 5173547404194, 34998670879379874,
    63403580030976, 63293313282048, 63403580037900, 63293313288972, 63403580038176, 63293313289248,
    63403580031276, 63293313282348, 63407959474626, 60871649071554, 63407959481526, 60871649078454,
    63407959481250, 60871649078178, 63407959474326, 60871649071254, 1458282165545520, 2751890496048,
    1458282165538620, 2751890489148, 1458282165538320, 2751890488848, 1458282165545244,
    2751890495772, 1458278136457362, 5173540108434, 1458278136450438, 5173540101510,
    1458278136450738, 5173540101810, 1458278136457638, 5173540108710, 1458282340712448,
    1458282340719648, 1458282340712748, 1458282340719372, 63407784306834, 63407784300210,
    63407784307110, 63407784299910, 1458277961269698, 1458277961276322, 1458277961269398,
    1458277961276598, 63403755219504, 63403755212304, 63403755219228, 63403755212604], (n (n (n (n
    (n (n (n l 2751883186176 5 l) 2751883186476 10 (n l 2751883193100 14 l)) 2751883193376 18 (n (n
    l 2751890488848 69 l) 2751890489148 67 l)) 2751890495772 71 (n (n (n l 2751890496048 65 l)
    5173540101510 75 l) 5173540101810 77 (n (n l 5173540108434 73 l) 5173540108710 79 l)))
    5173547397270 42 (n (n (n (n l 5173547397570 40 l) 5173547404194 46 l) 5173547404470 44 (n (n l
    60871649071254 63 l) 60871649071554 57 l)) 60871649078178 61 (n (n (n l 60871649078454 59 l)
    60871656373638 36 l) 60871656373938 38 (n (n l 60871656380562 32 l) 60871656380838 34 l))))
    63293305986576 30 (n (n (n (n (n l 63293305986876 27 l) 63293305993500 24 l) 63293305993776 21
    (n (n l 63293313282048 49 l) 63293313282348 55 l)) 63293313288972 51 (n (n (n l 63293313289248
    53 l) 63403580030976 48 l) 63403580031276 54 (n (n l 63403580037900 50 l) 63403580038176 52 l)))
    63403755212304 93 (n (n (n (n l 63403755212604 95 l) 63403755219228 94 l) 63403755219504 92 (n
    (n l 63407784299910 87 l) 63407784300210 85 l)) 63407784306834 84 (n (n (n l 63407784307110 86
    l) 63407959474326 62 l) 63407959474626 56 (n (n l 63407959481250 60 l) 63407959481526 58 l)))))
    1458277961269398 90 (n (n (n (n (n (n l 1458277961269698 88 l) 1458277961276322 89 l)
    1458277961276598 91 (n (n l 1458278136450438 74 l) 1458278136450738 76 l)) 1458278136457362 72
    (n (n (n l 1458278136457638 78 l) 1458282165538320 68 l) 1458282165538620 66 (n (n l
    1458282165545244 70 l) 1458282165545520 64 l))) 1458282340712448 80 (n (n (n (n l
    1458282340712748 82 l) 1458282340719372 83 l) 1458282340719648 81 (n (n l 1521685729654272 0 l)
    1521685729654572 1 l)) 1521685729661196 2 (n (n (n l 1521685729661472 7 l) 1521685729962000 31
    l) 1521685729962300 28 (n (n l 1521685729968924 25 l) 1521685729969200 22 l)))) 1521786632029062
    37 (n (n (n (n (n l 1521786632029362 39 l) 1521786632035986 33 l) 1521786632036262 35 (n (n l
    1521786632329878 23 l) 1521786632330178 20 l)) 1521786632336802 29 (n (n (n l 1521786632337078
    26 l) 34998670879372950 43 l) 34998670879373250 41 (n (n l 34998670879379874 47 l)
    34998670879380150 45 l))) 34998670879680390 13 (n (n (n (n l 34998670879680690 17 l)
    34998670879687314 4 l) 34998670879687590 9 (n (n l 34998771781747728 16 l) 34998771781748028 12
    l)) 34998771781754652 8 (n (n (n l 34998771781754928 3 l) 34998771782048256 6 l)
    34998771782048556 11 (n (n l 34998771782055180 15 l) 34998771782055456 19 l)))))))
def codes1_222 : List Nat × Tree := ([1521685729654272, 34998771781751328, 34998670879683852,
    2751883186176, 63513456597516, 34998771782048256, 1521786632330028, 63293305990176,
    1460809494754860, 1521685729965600, 60871656377100, 1458387837538560, 1521786632032524,
    5173547397420, 65935113205536, 34998670879373100, 63403580030976, 60766167866112,
    63293313282048, 63407959474476, 60867245415468, 60871649071404, 1458282165541920, 2747304345888,
    2751890492448, 1458278136453900, 2646577152012, 5173540104972, 1521685538869536,
    1458282340712448, 34998670695894060, 63407784303372, 1521681341902860, 1458277961269548,
    34998666484329216, 63403755215904, 1460809494443532, 63513456300588, 1458387837836064,
    65935113516288, 34998670688587788, 1521685546175232, 1521681334610988, 34998666491621664,
    60867070230540, 60766343037216, 2747479530240, 2646401981484], (n (n (n (n (n (n l 2646401981484
    47 l) 2646577152012 26 (n l 2747304345888 23 l)) 2747479530240 46 (n (n l 2751883186176 3 l)
    2751890492448 24 l)) 5173540104972 27 (n (n (n l 5173547397420 13 l) 60766167866112 17 l)
    60766343037216 45 (n (n l 60867070230540 44 l) 60867245415468 20 l))) 60871649071404 21 (n (n (n
    (n l 60871656377100 10 l) 63293305990176 7 l) 63293313282048 18 (n (n l 63403580030976 16 l)
    63403755215904 35 l)) 63407784303372 31 (n (n (n l 63407959474476 19 l) 63513456300588 37 l)
    63513456597516 4 (n (n l 65935113205536 14 l) 65935113516288 39 l)))) 1458277961269548 33 (n (n
    (n (n (n l 1458278136453900 25 l) 1458282165541920 22 l) 1458282340712448 29 (n (n l
    1458387837538560 11 l) 1458387837836064 38 l)) 1460809494443532 36 (n (n (n l 1460809494754860 8
    l) 1521681334610988 42 l) 1521681341902860 32 (n (n l 1521685538869536 28 l) 1521685546175232 41
    l))) 1521685729654272 0 (n (n (n (n l 1521685729965600 9 l) 1521786632032524 12 l)
    1521786632330028 6 (n (n l 34998666484329216 34 l) 34998666491621664 43 l)) 34998670688587788 40
    (n (n (n l 34998670695894060 30 l) 34998670879373100 15 l) 34998670879683852 2 (n (n l
    34998771781751328 1 l) 34998771782048256 5 l))))))
def codes1_224 : List Nat × Tree := ([1521685729654272, 34998771781751328, 34998670879683852,
    2751883186176, 63513456604704, 34998771782048256, 1521786632330028, 63293305990176,
    1460809494747648, 1521685729965600, 60871656377100, 1458387837531948, 1521786632032524,
    5173547397420, 65935113212172, 34998670879373100, 63403580030976, 60766167859500,
    63293313282048, 63407959474476, 60867245408256, 60871649071404, 1458282165541920, 2747304352524,
    2751890492448, 1458278136453900, 2646577159200, 5173540104972, 1521685538876172,
    1458282340712448, 34998670695886848, 63407784303372, 1521681341910048, 1458277961269548,
    34998666484322604, 63403755215904, 1460809494450720, 63513456293376, 1458387837842700,
    65935113509676, 34998670688594976, 1521685546168620, 1521681334603776, 34998666491628300,
    60867070237728, 60766343043852, 2747479523628, 2646401974272], (n (n (n (n (n (n l 2646401974272
    47 l) 2646577159200 26 (n l 2747304352524 23 l)) 2747479523628 46 (n (n l 2751883186176 3 l)
    2751890492448 24 l)) 5173540104972 27 (n (n (n l 5173547397420 13 l) 60766167859500 17 l)
    60766343043852 45 (n (n l 60867070237728 44 l) 60867245408256 20 l))) 60871649071404 21 (n (n (n
    (n l 60871656377100 10 l) 63293305990176 7 l) 63293313282048 18 (n (n l 63403580030976 16 l)
    63403755215904 35 l)) 63407784303372 31 (n (n (n l 63407959474476 19 l) 63513456293376 37 l)
    63513456604704 4 (n (n l 65935113212172 14 l) 65935113509676 39 l)))) 1458277961269548 33 (n (n
    (n (n (n l 1458278136453900 25 l) 1458282165541920 22 l) 1458282340712448 29 (n (n l
    1458387837531948 11 l) 1458387837842700 38 l)) 1460809494450720 36 (n (n (n l 1460809494747648 8
    l) 1521681334603776 42 l) 1521681341910048 32 (n (n l 1521685538876172 28 l) 1521685546168620 41
    l))) 1521685729654272 0 (n (n (n (n l 1521685729965600 9 l) 1521786632032524 12 l)
    1521786632330028 6 (n (n l 34998666484322604 34 l) 34998666491628300 43 l)) 34998670688594976 40
    (n (n (n l 34998670695886848 30 l) 34998670879373100 15 l) 34998670879683852 2 (n (n l
    34998771781751328 1 l) 34998771782048256 5 l))))))
def codes1_227 : List Nat × Tree := ([1521685729654272, 1521685729654572, 1521685729661196,
    34998771781754652, 34998670879680690, 2751883186176, 63513456608028, 34998771782048256,
    1521685729661472, 34998771781754928, 34998670879680390, 2751883186476, 63513456608304,
    34998771782048556, 34998771781747728, 34998670879687590, 2751883193100, 63513456601104,
    34998771782055180, 34998771781748028, 34998670879687314, 2751883193376, 63513456601404,
    34998771782055456, 1521786632337078, 63293305993500, 1460809494747648, 1521685729968924,
    1521786632336802, 63293305993776, 1460809494747948, 1521685729969200, 1521786632330178,
    63293305986576, 1460809494754572, 1521685729962000, 1521786632329878, 63293305986876,
    1460809494754848, 1521685729962300, 60871656373938, 1458387837538998, 1521786632029362,
    60871656373638, 1458387837538722, 1521786632029062, 60871656380838, 1458387837532098,
    1521786632036262, 60871656380562, 1458387837531798, 1521786632035986, 5173547404470,
    65935113209010, 34998670879380150, 5173547404194, 65935113208710, 34998670879379874,
    5173547397570, 65935113215910, 34998670879373250, 5173547397270, 65935113215634,
    34998670879372950, 63403580030976, 60766167866550, 63293313282048, 63403580037900,
    60766167859650, 63293313288972, 63403580038176, 60766167859350, 63293313289248, 63403580031276,
    60766167866274, 63293313282348, 63407959481526, 60867245408256, 60871649078454, 63407959474626,
    60867245415180, 60871649071554, 63407959474326, 60867245415456, 60871649071254, 63407959481250,
    60867245408556, 60871649078178, 1458282165545244, 2747304349362, 2751890495772,
    1458282165538320, 2747304356262, 2751890488848, 1458282165538620, 2747304355986, 2751890489148,
    1458282165545520, 2747304349062, 2751890496048, 1458278136450738, 2646577162524, 5173540101810,
    1458278136457638, 2646577155600, 5173540108710, 1458278136457362, 2646577155900, 5173540108434,
    1458278136450438, 2646577162800, 5173540101510, 1521685538873010, 1458282340712448,
    1521685538879634, 1458282340719648, 1521685538872710, 1458282340712748, 1521685538879910,
    1458282340719372, 34998670695886848, 63407784300210, 34998670695894048, 63407784306834,
    34998670695887148, 63407784299910, 34998670695893772, 63407784307110, 1521681341913372,
    1458277961276598, 1521681341906748, 1458277961269398, 1521681341913648, 1458277961276322,
    1521681341906448, 1458277961269698, 34998666484329654, 63403755219228, 34998666484322454,
    63403755212604, 34998666484329378, 63403755219504, 34998666484322754, 63403755212304,
    1460809494454044, 1460809494447120, 1460809494454320, 1460809494447420, 63513456293376,
    63513456300300, 63513456293676, 63513456300576, 1458387837839538, 1458387837846438,
    1458387837839238, 1458387837846162, 65935113516726, 65935113509826, 65935113516450,
    65935113509526, 34998670688598300, 34998670688598576, 34998670688591676, 34998670688591376,
    1521685546175670, 1521685546175394, 1521685546168470, 1521685546168770, 1521681334603776,
    1521681334604076, 1521681334610976, 1521681334610700, 34998666491625138, 34998666491624838,
    34998666491631762, 34998666491632038, 60867070241052, 60867070234428, 60867070234128,
    60867070241328, 60766343040690, 60766343047314, 60766343047590, 60766343040390, 2747479530678,
    2747479523478, 2747479523778, 2747479530402, 2646401974272, 2646401981472, 2646401981196,
    2646401974572], (n (n (n (n (n (n (n (n l 2646401974272 188 l) 2646401974572 191 (n l
    2646401981196 190 l)) 2646401981472 189 (n (n l 2646577155600 104 l) 2646577155900 107 l))
    2646577162524 101 (n (n (n l 2646577162800 110 l) 2747304349062 98 l) 2747304349362 89 (n (n l
    2747304355986 95 l) 2747304356262 92 l))) 2747479523478 185 (n (n (n (n l 2747479523778 186 l)
    2747479530402 187 l) 2747479530678 184 (n (n l 2751883186176 5 l) 2751883186476 11 l))
    2751883193100 16 (n (n (n l 2751883193376 21 l) 2751890488848 93 l) 2751890489148 96 (n (n l
    2751890495772 90 l) 2751890496048 99 l)))) 5173540101510 111 (n (n (n (n (n l 5173540101810 102
    l) 5173540108434 108 l) 5173540108710 105 (n (n l 5173547397270 61 l) 5173547397570 58 l))
    5173547404194 55 (n (n (n l 5173547404470 52 l) 60766167859350 71 l) 60766167859650 68 (n (n l
    60766167866274 74 l) 60766167866550 65 l))) 60766343040390 183 (n (n (n (n l 60766343040690 180
    l) 60766343047314 181 l) 60766343047590 182 (n (n l 60867070234128 178 l) 60867070234428 177 l))
    60867070241052 176 (n (n (n l 60867070241328 179 l) 60867245408256 77 l) 60867245408556 86 (n (n
    l 60867245415180 80 l) 60867245415456 83 l))))) 60871649071254 84 (n (n (n (n (n (n l
    60871649071554 81 l) 60871649078178 87 l) 60871649078454 78 (n (n l 60871656373638 43 l)
    60871656373938 40 l)) 60871656380562 49 (n (n (n l 60871656380838 46 l) 63293305986576 33 l)
    63293305986876 37 (n (n l 63293305993500 25 l) 63293305993776 29 l))) 63293313282048 66 (n (n (n
    (n l 63293313282348 75 l) 63293313288972 69 l) 63293313289248 72 (n (n l 63403580030976 64 l)
    63403580031276 73 l)) 63403580037900 67 (n (n (n l 63403580038176 70 l) 63403755212304 143 l)
    63403755212604 139 (n (n l 63403755219228 137 l) 63403755219504 141 l)))) 63407784299910 125 (n
    (n (n (n (n l 63407784300210 121 l) 63407784306834 123 l) 63407784307110 127 (n (n l
    63407959474326 82 l) 63407959474626 79 l)) 63407959481250 85 (n (n (n l 63407959481526 76 l)
    63513456293376 148 l) 63513456293676 150 (n (n l 63513456300300 149 l) 63513456300576 151 l)))
    63513456601104 17 (n (n (n (n l 63513456601404 22 l) 63513456608028 6 l) 63513456608304 12 (n (n
    l 65935113208710 56 l) 65935113209010 53 l)) 65935113215634 62 (n (n (n l 65935113215910 59 l)
    65935113509526 159 l) 65935113509826 157 (n (n l 65935113516450 158 l) 65935113516726 156
    l)))))) 1458277961269398 131 (n (n (n (n (n (n (n l 1458277961269698 135 l) 1458277961276322 133
    l) 1458277961276598 129 (n (n l 1458278136450438 109 l) 1458278136450738 100 l))
    1458278136457362 106 (n (n (n l 1458278136457638 103 l) 1458282165538320 91 l) 1458282165538620
    94 (n (n l 1458282165545244 88 l) 1458282165545520 97 l))) 1458282340712448 113 (n (n (n (n l
    1458282340712748 117 l) 1458282340719372 119 l) 1458282340719648 115 (n (n l 1458387837531798 50
    l) 1458387837532098 47 l)) 1458387837538722 44 (n (n (n l 1458387837538998 41 l)
    1458387837839238 154 l) 1458387837839538 152 (n (n l 1458387837846162 155 l) 1458387837846438
    153 l)))) 1460809494447120 145 (n (n (n (n (n l 1460809494447420 147 l) 1460809494454044 144 l)
    1460809494454320 146 (n (n l 1460809494747648 26 l) 1460809494747948 30 l)) 1460809494754572 34
    (n (n (n l 1460809494754848 38 l) 1521681334603776 168 l) 1521681334604076 169 (n (n l
    1521681334610700 171 l) 1521681334610976 170 l))) 1521681341906448 134 (n (n (n (n l
    1521681341906748 130 l) 1521681341913372 128 l) 1521681341913648 132 (n (n l 1521685538872710
    116 l) 1521685538873010 112 l)) 1521685538879634 114 (n (n (n l 1521685538879910 118 l)
    1521685546168470 166 l) 1521685546168770 167 (n (n l 1521685546175394 165 l) 1521685546175670
    164 l))))) 1521685729654272 0 (n (n (n (n (n (n l 1521685729654572 1 l) 1521685729661196 2 l)
    1521685729661472 8 (n (n l 1521685729962000 35 l) 1521685729962300 39 l)) 1521685729968924 27 (n
    (n (n l 1521685729969200 31 l) 1521786632029062 45 l) 1521786632029362 42 (n (n l
    1521786632035986 51 l) 1521786632036262 48 l))) 1521786632329878 36 (n (n (n (n l
    1521786632330178 32 l) 1521786632336802 28 l) 1521786632337078 24 (n (n l 34998666484322454 138
    l) 34998666484322754 142 l)) 34998666484329378 140 (n (n (n l 34998666484329654 136 l)
    34998666491624838 173 l) 34998666491625138 172 (n (n l 34998666491631762 174 l)
    34998666491632038 175 l)))) 34998670688591376 163 (n (n (n (n (n l 34998670688591676 162 l)
    34998670688598300 160 l) 34998670688598576 161 (n (n l 34998670695886848 120 l)
    34998670695887148 124 l)) 34998670695893772 126 (n (n (n l 34998670695894048 122 l)
    34998670879372950 63 l) 34998670879373250 60 (n (n l 34998670879379874 57 l) 34998670879380150
    54 l))) 34998670879680390 10 (n (n (n (n l 34998670879680690 4 l) 34998670879687314 20 l)
    34998670879687590 15 (n (n l 34998771781747728 14 l) 34998771781748028 19 l)) 34998771781754652
    3 (n (n (n l 34998771781754928 9 l) 34998771782048256 7 l) 34998771782048556 13 (n (n l
    34998771782055180 18 l) 34998771782055456 23 l))))))))
def codes1_228 : List Nat × Tree := ([1521685729654272, 1521685729654572, 1521685729661196,
    34998771781748028, 34998670879687590, 2751883186176, 63513456608016, 34998771782048256,
    1521685729661472, 34998771781747728, 34998670879687314, 2751883186476, 63513456608316,
    34998771782048556, 34998771781754928, 34998670879680690, 2751883193100, 63513456601116,
    34998771782055180, 34998771781754652, 34998670879680390, 2751883193376, 63513456601392,
    34998771782055456, 1521786632336802, 63293305986876, 1460809494754860, 1521685729962300,
    1521786632337078, 63293305986576, 1460809494754560, 1521685729962000, 1521786632329878,
    63293305993776, 1460809494747936, 1521685729969200, 1521786632330178, 63293305993500,
    1460809494747660, 1521685729968924, 60871656380838, 1458387837532086, 1521786632036262,
    60871656380562, 1458387837531810, 1521786632035986, 60871656373938, 1458387837539010,
    1521786632029362, 60871656373638, 1458387837538710, 1521786632029062, 5173547404194,
    65935113208722, 34998670879379874, 5173547404470, 65935113208998, 34998670879380150,
    5173547397270, 65935113215622, 34998670879372950, 5173547397570, 65935113215922,
    34998670879373250, 63403580030976, 60766167859638, 63293313282048, 63403580037900,
    60766167866562, 63293313288972, 63403580038176, 60766167866262, 63293313289248, 63403580031276,
    60766167859362, 63293313282348, 63407959481250, 60867245415468, 60871649078178, 63407959474326,
    60867245408544, 60871649071254, 63407959474626, 60867245408268, 60871649071554, 63407959481526,
    60867245415168, 60871649078454, 1458282165538620, 2747304349074, 2751890489148,
    1458282165545520, 2747304355974, 2751890496048, 1458282165545244, 2747304356274, 2751890495772,
    1458282165538320, 2747304349350, 2751890488848, 1458278136457638, 2646577162512, 5173540108710,
    1458278136450738, 2646577155612, 5173540101810, 1458278136450438, 2646577155888, 5173540101510,
    1458278136457362, 2646577162812, 5173540108434, 1521685538872722, 1458282340712448,
    1521685538879922, 1458282340719648, 1521685538872998, 1458282340712748, 1521685538879622,
    1458282340719372, 34998670695894060, 63407784307110, 34998670695886860, 63407784299910,
    34998670695893760, 63407784306834, 34998670695887136, 63407784300210, 1521681341913360,
    1458277961276322, 1521681341906736, 1458277961269698, 1521681341913660, 1458277961276598,
    1521681341906460, 1458277961269398, 34998666484322742, 63403755212604, 34998666484329366,
    63403755219228, 34998666484322466, 63403755212304, 34998666484329666, 63403755219504,
    1460809494454032, 1460809494447132, 1460809494454332, 1460809494447408, 63513456300588,
    63513456293664, 63513456300288, 63513456293388, 1458387837839250, 1458387837846150,
    1458387837839526, 1458387837846450, 65935113509814, 65935113516738, 65935113509538,
    65935113516438, 34998670688598288, 34998670688598588, 34998670688591664, 34998670688591388,
    1521685546168758, 1521685546168482, 1521685546175382, 1521685546175682, 1521681334610988,
    1521681334610688, 1521681334603788, 1521681334604064, 34998666491624850, 34998666491625126,
    34998666491632050, 34998666491631750, 60867070241040, 60867070234416, 60867070234140,
    60867070241340, 60766343040402, 60766343047602, 60766343047302, 60766343040678, 2747479523766,
    2747479530390, 2747479530690, 2747479523490, 2646401981484, 2646401974284, 2646401974560,
    2646401981184], (n (n (n (n (n (n (n (n l 2646401974284 189 l) 2646401974560 190 (n l
    2646401981184 191 l)) 2646401981484 188 (n (n l 2646577155612 104 l) 2646577155888 107 l))
    2646577162512 101 (n (n (n l 2646577162812 110 l) 2747304349074 89 l) 2747304349350 98 (n (n l
    2747304355974 92 l) 2747304356274 95 l))) 2747479523490 187 (n (n (n (n l 2747479523766 184 l)
    2747479530390 185 l) 2747479530690 186 (n (n l 2751883186176 5 l) 2751883186476 11 l))
    2751883193100 16 (n (n (n l 2751883193376 21 l) 2751890488848 99 l) 2751890489148 90 (n (n l
    2751890495772 96 l) 2751890496048 93 l)))) 5173540101510 108 (n (n (n (n (n l 5173540101810 105
    l) 5173540108434 111 l) 5173540108710 102 (n (n l 5173547397270 58 l) 5173547397570 61 l))
    5173547404194 52 (n (n (n l 5173547404470 55 l) 60766167859362 74 l) 60766167859638 65 (n (n l
    60766167866262 71 l) 60766167866562 68 l))) 60766343040402 180 (n (n (n (n l 60766343040678 183
    l) 60766343047302 182 l) 60766343047602 181 (n (n l 60867070234140 178 l) 60867070234416 177 l))
    60867070241040 176 (n (n (n l 60867070241340 179 l) 60867245408268 83 l) 60867245408544 80 (n (n
    l 60867245415168 86 l) 60867245415468 77 l))))) 60871649071254 81 (n (n (n (n (n (n l
    60871649071554 84 l) 60871649078178 78 l) 60871649078454 87 (n (n l 60871656373638 49 l)
    60871656373938 46 l)) 60871656380562 43 (n (n (n l 60871656380838 40 l) 63293305986576 29 l)
    63293305986876 25 (n (n l 63293305993500 37 l) 63293305993776 33 l))) 63293313282048 66 (n (n (n
    (n l 63293313282348 75 l) 63293313288972 69 l) 63293313289248 72 (n (n l 63403580030976 64 l)
    63403580031276 73 l)) 63403580037900 67 (n (n (n l 63403580038176 70 l) 63403755212304 141 l)
    63403755212604 137 (n (n l 63403755219228 139 l) 63403755219504 143 l)))) 63407784299910 123 (n
    (n (n (n (n l 63407784300210 127 l) 63407784306834 125 l) 63407784307110 121 (n (n l
    63407959474326 79 l) 63407959474626 82 l)) 63407959481250 76 (n (n (n l 63407959481526 85 l)
    63513456293388 151 l) 63513456293664 149 (n (n l 63513456300288 150 l) 63513456300588 148 l)))
    63513456601116 17 (n (n (n (n l 63513456601392 22 l) 63513456608016 6 l) 63513456608316 12 (n (n
    l 65935113208722 53 l) 65935113208998 56 l)) 65935113215622 59 (n (n (n l 65935113215922 62 l)
    65935113509538 158 l) 65935113509814 156 (n (n l 65935113516438 159 l) 65935113516738 157
    l)))))) 1458277961269398 135 (n (n (n (n (n (n (n l 1458277961269698 131 l) 1458277961276322 129
    l) 1458277961276598 133 (n (n l 1458278136450438 106 l) 1458278136450738 103 l))
    1458278136457362 109 (n (n (n l 1458278136457638 100 l) 1458282165538320 97 l) 1458282165538620
    88 (n (n l 1458282165545244 94 l) 1458282165545520 91 l))) 1458282340712448 113 (n (n (n (n l
    1458282340712748 117 l) 1458282340719372 119 l) 1458282340719648 115 (n (n l 1458387837531810 44
    l) 1458387837532086 41 l)) 1458387837538710 50 (n (n (n l 1458387837539010 47 l)
    1458387837839250 152 l) 1458387837839526 154 (n (n l 1458387837846150 153 l) 1458387837846450
    155 l)))) 1460809494447132 145 (n (n (n (n (n l 1460809494447408 147 l) 1460809494454032 144 l)
    1460809494454332 146 (n (n l 1460809494747660 38 l) 1460809494747936 34 l)) 1460809494754560 30
    (n (n (n l 1460809494754860 26 l) 1521681334603788 170 l) 1521681334604064 171 (n (n l
    1521681334610688 169 l) 1521681334610988 168 l))) 1521681341906460 134 (n (n (n (n l
    1521681341906736 130 l) 1521681341913360 128 l) 1521681341913660 132 (n (n l 1521685538872722
    112 l) 1521685538872998 116 l)) 1521685538879622 118 (n (n (n l 1521685538879922 114 l)
    1521685546168482 165 l) 1521685546168758 164 (n (n l 1521685546175382 166 l) 1521685546175682
    167 l))))) 1521685729654272 0 (n (n (n (n (n (n l 1521685729654572 1 l) 1521685729661196 2 l)
    1521685729661472 8 (n (n l 1521685729962000 31 l) 1521685729962300 27 l)) 1521685729968924 39 (n
    (n (n l 1521685729969200 35 l) 1521786632029062 51 l) 1521786632029362 48 (n (n l
    1521786632035986 45 l) 1521786632036262 42 l))) 1521786632329878 32 (n (n (n (n l
    1521786632330178 36 l) 1521786632336802 24 l) 1521786632337078 28 (n (n l 34998666484322466 140
    l) 34998666484322742 136 l)) 34998666484329366 138 (n (n (n l 34998666484329666 142 l)
    34998666491624850 172 l) 34998666491625126 173 (n (n l 34998666491631750 175 l)
    34998666491632050 174 l)))) 34998670688591388 163 (n (n (n (n (n l 34998670688591664 162 l)
    34998670688598288 160 l) 34998670688598588 161 (n (n l 34998670695886860 122 l)
    34998670695887136 126 l)) 34998670695893760 124 (n (n (n l 34998670695894060 120 l)
    34998670879372950 60 l) 34998670879373250 63 (n (n l 34998670879379874 54 l) 34998670879380150
    57 l))) 34998670879680390 20 (n (n (n (n l 34998670879680690 15 l) 34998670879687314 10 l)
    34998670879687590 4 (n (n l 34998771781747728 9 l) 34998771781748028 3 l)) 34998771781754652 19
    (n (n (n l 34998771781754928 14 l) 34998771782048256 7 l) 34998771782048556 13 (n (n l
    34998771782055180 18 l) 34998771782055456 23 l))))))))

/-- Codes for setting 1, in the order of the space group numbers. -/
def table1 : List (List Nat × Tree) :=
[codes1_48, codes1_50, codes1_59, codes1_68, codes1_70, codes1_85, codes1_86, codes1_88, codes1_125,
    codes1_126, codes1_129, codes1_130, codes1_133, codes1_134, codes1_137, codes1_138, codes1_141,
    codes1_142, codes1_201, codes1_203, codes1_222, codes1_224, codes1_227, codes1_228]

/-- The check of a space group in setting 0. -/
noncomputable def checkAt (sg : Nat) : Bool :=
  match table0[sg - 1]? with
  | none => false
  | some (C, T) => checkSG sg 0 C T

/-- The check of the `i`-th space group with a second setting. -/
noncomputable def checkAlt (i : Nat) : Bool :=
  match altGroups[i]?, table1[i]? with
  | some sg, some (C, T) => checkSG sg 1 C T
  | _, _ => false

end Hexrd.SpaceGroup
