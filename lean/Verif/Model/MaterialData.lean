import Mathlib.Algebra.Order.Field.Rat

/-!
# `MaterialData.py`: the tables

Generated from MaterialData.py: the table of natural abundances (lines 3366-3653) with the entries of the table of atomic masses (lines 12-3363) for the same nuclides. The other
atomic masses are never used. The decimal literals are taken exactly.
-/

namespace Csg

/-- A nuclide of the tables: identifier, natural abundance in percent, atomic mass. -/
structure NuclideData where
  nucid : Nat
  abundance : ℚ
  mass : ℚ
  deriving DecidableEq

/-- `natural_abund_map` and `atomic_mass_map` (MaterialData.py 3366-3653, 12-3363), in the order of the keys of the first. -/
def materialData : List NuclideData :=
  [⟨10010000, 999885 / 10000, 100782503223 / 100000000000⟩,
   ⟨10020000, 115 / 10000, 201410177812 / 100000000000⟩,
   ⟨20030000, 134 / 1000000, 301602932008 / 100000000000⟩,
   ⟨20040000, 99999866 / 1000000, 400260325413 / 100000000000⟩,
   ⟨30060000, 759 / 100, 601512288742 / 100000000000⟩,
   ⟨30070000, 9241 / 100, 701600343659 / 100000000000⟩,
   ⟨40090000, 100, 9012183065 / 1000000000⟩,
   ⟨50100000, 199 / 10, 10012936949 / 1000000000⟩,
   ⟨50110000, 801 / 10, 11009305355 / 1000000000⟩,
   ⟨60120000, 9893 / 100, 12⟩,
   ⟨60130000, 107 / 100, 1300335483507 / 100000000000⟩,
   ⟨70140000, 99636 / 1000, 1400307400443 / 100000000000⟩,
   ⟨70150000, 364 / 1000, 1500010889888 / 100000000000⟩,
   ⟨80160000, 99757 / 1000, 1599491461957 / 100000000000⟩,
   ⟨80170000, 38 / 1000, 169991317565 / 10000000000⟩,
   ⟨80180000, 205 / 1000, 1799915961286 / 100000000000⟩,
   ⟨90190000, 100, 1899840316273 / 100000000000⟩,
   ⟨100200000, 9048 / 100, 1999244017617 / 100000000000⟩,
   ⟨100210000, 27 / 100, 20993846685 / 1000000000⟩,
   ⟨100220000, 925 / 100, 21991385114 / 1000000000⟩,
   ⟨110230000, 100, 2298976928196 / 100000000000⟩,
   ⟨120240000, 7899 / 100, 23985041697 / 1000000000⟩,
   ⟨120250000, 10, 24985836976 / 1000000000⟩,
   ⟨120260000, 1101 / 100, 25982592968 / 1000000000⟩,
   ⟨130270000, 100, 26981538530999998 / 1000000000000000⟩,
   ⟨140280000, 92223 / 1000, 2797692653465 / 100000000000⟩,
   ⟨140290000, 4685 / 1000, 289764946649 / 10000000000⟩,
   ⟨140300000, 3092 / 1000, 29973770136 / 1000000000⟩,
   ⟨150310000, 100, 3097376199842 / 100000000000⟩,
   ⟨160320000, 9499 / 100, 3197207117441 / 100000000000⟩,
   ⟨160330000, 75 / 100, 3297145890982 / 100000000000⟩,
   ⟨160340000, 425 / 100, 33967867004 / 1000000000⟩,
   ⟨160360000, 1 / 100, 35967080706 / 1000000000⟩,
   ⟨170350000, 7576 / 100, 34968852682 / 1000000000⟩,
   ⟨170370000, 2424 / 100, 36965902602 / 1000000000⟩,
   ⟨180360000, 3336 / 10000, 35967545105 / 1000000000⟩,
   ⟨180380000, 629 / 10000, 37962732106 / 1000000000⟩,
   ⟨180400000, 996035 / 10000, 3996238312372 / 100000000000⟩,
   ⟨190390000, 932581 / 10000, 3896370648643 / 100000000000⟩,
   ⟨190400000, 117 / 10000, 39963998166 / 1000000000⟩,
   ⟨190410000, 67302 / 10000, 4096182525792 / 100000000000⟩,
   ⟨200400000, 96941 / 1000, 39962590863 / 1000000000⟩,
   ⟨200420000, 647 / 1000, 4195861783 / 100000000⟩,
   ⟨200430000, 135 / 1000, 42958766438 / 1000000000⟩,
   ⟨200440000, 2086 / 1000, 43955481561 / 1000000000⟩,
   ⟨200460000, 4 / 1000, 45953689023 / 1000000000⟩,
   ⟨200480000, 187 / 1000, 47952522765 / 1000000000⟩,
   ⟨210450000, 100, 44955908275 / 1000000000⟩,
   ⟨220460000, 825 / 100, 45952627718 / 1000000000⟩,
   ⟨220470000, 744 / 100, 46951758787 / 1000000000⟩,
   ⟨220480000, 7372 / 100, 47947941979 / 1000000000⟩,
   ⟨220490000, 541 / 100, 48947865676 / 1000000000⟩,
   ⟨220500000, 518 / 100, 49944786889 / 1000000000⟩,
   ⟨230500000, 25 / 100, 49947156014 / 1000000000⟩,
   ⟨230510000, 9975 / 100, 50943957036 / 1000000000⟩,
   ⟨240500000, 4345 / 1000, 49946041833 / 1000000000⟩,
   ⟨240520000, 83789 / 1000, 51940506231 / 1000000000⟩,
   ⟨240530000, 9501 / 1000, 52940648147 / 1000000000⟩,
   ⟨240540000, 2365 / 1000, 53938879158 / 1000000000⟩,
   ⟨250550000, 100, 5493804391 / 100000000⟩,
   ⟨260540000, 5845 / 1000, 53939608986 / 1000000000⟩,
   ⟨260560000, 91754 / 1000, 55934936326 / 1000000000⟩,
   ⟨260570000, 2119 / 1000, 56935392841 / 1000000000⟩,
   ⟨260580000, 282 / 1000, 57933274431 / 1000000000⟩,
   ⟨270590000, 100, 58933194288 / 1000000000⟩,
   ⟨280580000, 68077 / 1000, 57935342414 / 1000000000⟩,
   ⟨280600000, 26223 / 1000, 59930785885 / 1000000000⟩,
   ⟨280610000, 11399 / 10000, 6093105557 / 100000000⟩,
   ⟨280620000, 36346 / 10000, 61928345365 / 1000000000⟩,
   ⟨280640000, 9255 / 10000, 63927966816 / 1000000000⟩,
   ⟨290630000, 6915 / 100, 62929597723 / 1000000000⟩,
   ⟨290650000, 3085 / 100, 64927789704 / 1000000000⟩,
   ⟨300640000, 4917 / 100, 63929142013 / 1000000000⟩,
   ⟨300660000, 2773 / 100, 65926033809 / 1000000000⟩,
   ⟨300670000, 404 / 100, 66927127746 / 1000000000⟩,
   ⟨300680000, 1845 / 100, 67924844554 / 1000000000⟩,
   ⟨300700000, 61 / 100, 69925319208 / 1000000000⟩,
   ⟨310690000, 60108 / 1000, 68925573541 / 1000000000⟩,
   ⟨310710000, 39892 / 1000, 70924702577 / 1000000000⟩,
   ⟨320700000, 2057 / 100, 6992424875 / 100000000⟩,
   ⟨320720000, 2745 / 100, 71922075826 / 1000000000⟩,
   ⟨320730000, 775 / 100, 72923458956 / 1000000000⟩,
   ⟨320740000, 365 / 10, 73921177761 / 1000000000⟩,
   ⟨320760000, 773 / 100, 75921402726 / 1000000000⟩,
   ⟨330750000, 100, 74921594567 / 1000000000⟩,
   ⟨340740000, 89 / 100, 73922475934 / 1000000000⟩,
   ⟨340760000, 937 / 100, 75919213704 / 1000000000⟩,
   ⟨340770000, 763 / 100, 76919914154 / 1000000000⟩,
   ⟨340780000, 2377 / 100, 7791730928 / 100000000⟩,
   ⟨340800000, 4961 / 100, 79916521762 / 1000000000⟩,
   ⟨340820000, 873 / 100, 81916699497 / 1000000000⟩,
   ⟨350790000, 5069 / 100, 78918337579 / 1000000000⟩,
   ⟨350810000, 4931 / 100, 8091628969 / 100000000⟩,
   ⟨360780000, 355 / 1000, 77920364944 / 1000000000⟩,
   ⟨360800000, 2286 / 1000, 79916378084 / 1000000000⟩,
   ⟨360820000, 11593 / 1000, 8191348273 / 100000000⟩,
   ⟨360830000, 115 / 10, 82914127164 / 1000000000⟩,
   ⟨360840000, 56987 / 1000, 8391149772816 / 100000000000⟩,
   ⟨360860000, 17279 / 1000, 8591061062693 / 100000000000⟩,
   ⟨370850000, 7217 / 100, 849117897379 / 10000000000⟩,
   ⟨370870000, 2783 / 100, 86909180531 / 1000000000⟩,
   ⟨380840000, 56 / 100, 83913419136 / 1000000000⟩,
   ⟨380860000, 986 / 100, 85909260608 / 1000000000⟩,
   ⟨380870000, 7, 86908877531 / 1000000000⟩,
   ⟨380880000, 8258 / 100, 87905612542 / 1000000000⟩,
   ⟨390890000, 100, 88905840348 / 1000000000⟩,
   ⟨400900000, 5145 / 100, 8990469765899999 / 100000000000000⟩,
   ⟨400910000, 1122 / 100, 90905639587 / 1000000000⟩,
   ⟨400920000, 1715 / 100, 91905034675 / 1000000000⟩,
   ⟨400940000, 1738 / 100, 93906310828 / 1000000000⟩,
   ⟨400960000, 28 / 10, 95908271433 / 1000000000⟩,
   ⟨410930000, 100, 92906373004 / 1000000000⟩,
   ⟨420920000, 1453 / 100, 91906807959 / 1000000000⟩,
   ⟨420940000, 915 / 100, 93905084903 / 1000000000⟩,
   ⟨420950000, 1584 / 100, 94905838766 / 1000000000⟩,
   ⟨420960000, 1667 / 100, 95904676115 / 1000000000⟩,
   ⟨420970000, 96 / 10, 96906018118 / 1000000000⟩,
   ⟨420980000, 2439 / 100, 9790540482 / 100000000⟩,
   ⟨421000000, 982 / 100, 99907471782 / 1000000000⟩,
   ⟨440960000, 554 / 100, 95907590255 / 1000000000⟩,
   ⟨440980000, 187 / 100, 97905286813 / 1000000000⟩,
   ⟨440990000, 1276 / 100, 98905934082 / 1000000000⟩,
   ⟨441000000, 126 / 10, 99904214256 / 1000000000⟩,
   ⟨441010000, 1706 / 100, 100905576872 / 1000000000⟩,
   ⟨441020000, 3155 / 100, 101904344096 / 1000000000⟩,
   ⟨441040000, 1862 / 100, 103905427481 / 1000000000⟩,
   ⟨451030000, 100, 102905497993 / 1000000000⟩,
   ⟨461020000, 102 / 100, 101905602187 / 1000000000⟩,
   ⟨461040000, 1114 / 100, 10390403054 / 100000000⟩,
   ⟨461050000, 2233 / 100, 104905079626 / 1000000000⟩,
   ⟨461060000, 2733 / 100, 105903480426 / 1000000000⟩,
   ⟨461080000, 2646 / 100, 10790389164 / 100000000⟩,
   ⟨461100000, 1172 / 100, 109905172199 / 1000000000⟩,
   ⟨471070000, 51839 / 1000, 106905091611 / 1000000000⟩,
   ⟨471090000, 48161 / 1000, 108904755282 / 1000000000⟩,
   ⟨481060000, 125 / 100, 105906459928 / 1000000000⟩,
   ⟨481080000, 89 / 100, 10790418344 / 100000000⟩,
   ⟨481100000, 1249 / 100, 109903006606 / 1000000000⟩,
   ⟨481110000, 128 / 10, 110904182872 / 1000000000⟩,
   ⟨481120000, 2413 / 100, 111902762868 / 1000000000⟩,
   ⟨481130000, 1222 / 100, 112904408133 / 1000000000⟩,
   ⟨481140000, 2873 / 100, 113903365086 / 1000000000⟩,
   ⟨481160000, 749 / 100, 115904763148 / 1000000000⟩,
   ⟨491130000, 429 / 100, 112904061839 / 1000000000⟩,
   ⟨491150000, 9571 / 100, 114903878776 / 1000000000⟩,
   ⟨501120000, 97 / 100, 111904823874 / 1000000000⟩,
   ⟨501140000, 66 / 100, 113902782695 / 1000000000⟩,
   ⟨501150000, 34 / 100, 114903344699 / 1000000000⟩,
   ⟨501160000, 1454 / 100, 115901742797 / 1000000000⟩,
   ⟨501170000, 768 / 100, 116902953983 / 1000000000⟩,
   ⟨501180000, 2422 / 100, 117901606574 / 1000000000⟩,
   ⟨501190000, 859 / 100, 118903311172 / 1000000000⟩,
   ⟨501200000, 3258 / 100, 119902201634 / 1000000000⟩,
   ⟨501220000, 463 / 100, 121903443774 / 1000000000⟩,
   ⟨501240000, 579 / 100, 123905276645 / 1000000000⟩,
   ⟨511210000, 5721 / 100, 120903811967 / 1000000000⟩,
   ⟨511230000, 4279 / 100, 122904213204 / 1000000000⟩,
   ⟨521200000, 9 / 100, 1199040593 / 10000000⟩,
   ⟨521220000, 255 / 100, 121903043455 / 1000000000⟩,
   ⟨521230000, 89 / 100, 122904269769 / 1000000000⟩,
   ⟨521240000, 474 / 100, 123902817085 / 1000000000⟩,
   ⟨521250000, 707 / 100, 12490442992 / 100000000⟩,
   ⟨521260000, 1884 / 100, 125903310886 / 1000000000⟩,
   ⟨521280000, 3174 / 100, 127904461279 / 1000000000⟩,
   ⟨521300000, 3408 / 100, 129906222748 / 1000000000⟩,
   ⟨531270000, 100, 126904471853 / 1000000000⟩,
   ⟨541240000, 952 / 10000, 123905891984 / 1000000000⟩,
   ⟨541260000, 89 / 1000, 125904298292 / 1000000000⟩,
   ⟨541280000, 19102 / 10000, 127903531018 / 1000000000⟩,
   ⟨541290000, 264006 / 10000, 12890478086113 / 100000000000⟩,
   ⟨541300000, 4071 / 1000, 129903509349 / 1000000000⟩,
   ⟨541310000, 212324 / 10000, 130905084057 / 1000000000⟩,
   ⟨541320000, 269086 / 10000, 13190415508563 / 100000000000⟩,
   ⟨541340000, 104357 / 10000, 133905394664 / 1000000000⟩,
   ⟨541360000, 88573 / 10000, 135907214484 / 1000000000⟩,
   ⟨551330000, 100, 132905451961 / 1000000000⟩,
   ⟨561300000, 106 / 1000, 129906320669 / 1000000000⟩,
   ⟨561320000, 101 / 1000, 131905061128 / 1000000000⟩,
   ⟨561340000, 2417 / 1000, 133904508182 / 1000000000⟩,
   ⟨561350000, 6592 / 1000, 134905688375 / 1000000000⟩,
   ⟨561360000, 7854 / 1000, 135904575727 / 1000000000⟩,
   ⟨561370000, 11232 / 1000, 136905827141 / 1000000000⟩,
   ⟨561380000, 71698 / 1000, 137905246995 / 1000000000⟩,
   ⟨571380000, 8881 / 100000, 137907114919 / 1000000000⟩,
   ⟨571390000, 9991119 / 100000, 138906356256 / 1000000000⟩,
   ⟨581360000, 185 / 1000, 135907129205 / 1000000000⟩,
   ⟨581380000, 251 / 1000, 137905991089 / 1000000000⟩,
   ⟨581400000, 8845 / 100, 139905443107 / 1000000000⟩,
   ⟨581420000, 11114 / 1000, 141909250375 / 1000000000⟩,
   ⟨591410000, 100, 140907657568 / 1000000000⟩,
   ⟨601420000, 27152 / 1000, 141907728996 / 1000000000⟩,
   ⟨601430000, 12174 / 1000, 142909819989 / 1000000000⟩,
   ⟨601440000, 23798 / 1000, 143910092974 / 1000000000⟩,
   ⟨601450000, 8293 / 1000, 144912579322 / 1000000000⟩,
   ⟨601460000, 17189 / 1000, 145913122628 / 1000000000⟩,
   ⟨601480000, 5756 / 1000, 147916899294 / 1000000000⟩,
   ⟨601500000, 5638 / 1000, 149920902249 / 1000000000⟩,
   ⟨621440000, 307 / 100, 143912006466 / 1000000000⟩,
   ⟨621470000, 1499 / 100, 146914904435 / 1000000000⟩,
   ⟨621480000, 1124 / 100, 147914829226 / 1000000000⟩,
   ⟨621490000, 1382 / 100, 148917192062 / 1000000000⟩,
   ⟨621500000, 738 / 100, 149917282919 / 1000000000⟩,
   ⟨621520000, 2675 / 100, 151919739721 / 1000000000⟩,
   ⟨621540000, 2275 / 100, 153922216861 / 1000000000⟩,
   ⟨631510000, 4781 / 100, 150919857803 / 1000000000⟩,
   ⟨631530000, 5219 / 100, 152921238003 / 1000000000⟩,
   ⟨641520000, 2 / 10, 151919799494 / 1000000000⟩,
   ⟨641540000, 218 / 100, 15392087406 / 100000000⟩,
   ⟨641550000, 148 / 10, 154922630473 / 1000000000⟩,
   ⟨641560000, 2047 / 100, 155922131241 / 1000000000⟩,
   ⟨641570000, 1565 / 100, 156923968569 / 1000000000⟩,
   ⟨641580000, 2484 / 100, 157924112348 / 1000000000⟩,
   ⟨641600000, 2186 / 100, 159927062411 / 1000000000⟩,
   ⟨651590000, 100, 15892535471 / 100000000⟩,
   ⟨661560000, 56 / 1000, 155924284713 / 1000000000⟩,
   ⟨661580000, 95 / 1000, 157924415875 / 1000000000⟩,
   ⟨661600000, 2329 / 1000, 159925204646 / 1000000000⟩,
   ⟨661610000, 18889 / 1000, 160926940492 / 1000000000⟩,
   ⟨661620000, 25475 / 1000, 161926805573 / 1000000000⟩,
   ⟨661630000, 24896 / 1000, 162928738284 / 1000000000⟩,
   ⟨661640000, 2826 / 100, 163929181874 / 1000000000⟩,
   ⟨671650000, 100, 164930328835 / 1000000000⟩,
   ⟨681620000, 139 / 1000, 161928788364 / 1000000000⟩,
   ⟨681640000, 1601 / 1000, 163929208791 / 1000000000⟩,
   ⟨681660000, 33503 / 1000, 16593029953 / 100000000⟩,
   ⟨681670000, 22869 / 1000, 166932054617 / 1000000000⟩,
   ⟨681680000, 26978 / 1000, 167932376688 / 1000000000⟩,
   ⟨681700000, 1491 / 100, 16993547023 / 100000000⟩,
   ⟨691690000, 100, 168934217889 / 1000000000⟩,
   ⟨701680000, 123 / 1000, 167933889602 / 1000000000⟩,
   ⟨701700000, 2982 / 1000, 169934766376 / 1000000000⟩,
   ⟨701710000, 1409 / 100, 170936330208 / 1000000000⟩,
   ⟨701720000, 2168 / 100, 171936385872 / 1000000000⟩,
   ⟨701730000, 16103 / 1000, 172938215136 / 1000000000⟩,
   ⟨701740000, 32026 / 1000, 173938866437 / 1000000000⟩,
   ⟨701760000, 12996 / 1000, 175942576447 / 1000000000⟩,
   ⟨711750000, 97401 / 1000, 174940775191 / 1000000000⟩,
   ⟨711760000, 2599 / 1000, 17594268968 / 100000000⟩,
   ⟨721740000, 16 / 100, 173940046141 / 1000000000⟩,
   ⟨721760000, 526 / 100, 175941407628 / 1000000000⟩,
   ⟨721770000, 186 / 10, 176943227717 / 1000000000⟩,
   ⟨721780000, 2728 / 100, 177943705833 / 1000000000⟩,
   ⟨721790000, 1362 / 100, 178945823212 / 1000000000⟩,
   ⟨721800000, 3508 / 100, 179946557042 / 1000000000⟩,
   ⟨731800000, 1201 / 100000, 179947464832 / 1000000000⟩,
   ⟨731810000, 9998799 / 100000, 180947995769 / 1000000000⟩,
   ⟨741800000, 12 / 100, 179946710805 / 1000000000⟩,
   ⟨741820000, 265 / 10, 181948203945 / 1000000000⟩,
   ⟨741830000, 1431 / 100, 182950222748 / 1000000000⟩,
   ⟨741840000, 3064 / 100, 183950930916 / 1000000000⟩,
   ⟨741860000, 2843 / 100, 185954362771 / 1000000000⟩,
   ⟨751850000, 374 / 10, 184952954486 / 1000000000⟩,
   ⟨751870000, 626 / 10, 186955750071 / 1000000000⟩,
   ⟨761840000, 2 / 100, 183952488536 / 1000000000⟩,
   ⟨761860000, 159 / 100, 185953835044 / 1000000000⟩,
   ⟨761870000, 196 / 100, 186955747422 / 1000000000⟩,
   ⟨761880000, 1324 / 100, 187955835174 / 1000000000⟩,
   ⟨761890000, 1615 / 100, 188958144162 / 1000000000⟩,
   ⟨761900000, 2626 / 100, 189958443702 / 1000000000⟩,
   ⟨761920000, 4078 / 100, 191961476998 / 1000000000⟩,
   ⟨771910000, 373 / 10, 190960589293 / 1000000000⟩,
   ⟨771930000, 627 / 10, 192962921587 / 1000000000⟩,
   ⟨781900000, 12 / 1000, 189959929707 / 1000000000⟩,
   ⟨781920000, 782 / 1000, 191961038746 / 1000000000⟩,
   ⟨781940000, 3286 / 100, 19396268085 / 100000000⟩,
   ⟨781950000, 3378 / 100, 194964791719 / 1000000000⟩,
   ⟨781960000, 2521 / 100, 195964952091 / 1000000000⟩,
   ⟨781980000, 7356 / 1000, 19796789492 / 100000000⟩,
   ⟨791970000, 100, 196966568786 / 1000000000⟩,
   ⟨801960000, 15 / 100, 19596583256 / 100000000⟩,
   ⟨801980000, 997 / 100, 197966768602 / 1000000000⟩,
   ⟨801990000, 1687 / 100, 198968280643 / 1000000000⟩,
   ⟨802000000, 231 / 10, 19996832659 / 100000000⟩,
   ⟨802010000, 1318 / 100, 200970302839 / 1000000000⟩,
   ⟨802020000, 2986 / 100, 2019706434 / 10000000⟩,
   ⟨802040000, 687 / 100, 203973493981 / 1000000000⟩,
   ⟨812030000, 2952 / 100, 202972344593 / 1000000000⟩,
   ⟨812050000, 7048 / 100, 204974427801 / 1000000000⟩,
   ⟨822040000, 14 / 10, 203973043981 / 1000000000⟩,
   ⟨822060000, 241 / 10, 205974465683 / 1000000000⟩,
   ⟨822070000, 221 / 10, 206975897297 / 1000000000⟩,
   ⟨822080000, 524 / 10, 207976652481 / 1000000000⟩,
   ⟨832090000, 100, 208980399068 / 1000000000⟩,
   ⟨902320000, 100, 23203805576 / 100000000⟩,
   ⟨912310000, 100, 231035884243 / 1000000000⟩,
   ⟨922340000, 54 / 10000, 234040952306 / 1000000000⟩,
   ⟨922350000, 7204 / 10000, 235043930131 / 1000000000⟩,
   ⟨922380000, 992742 / 10000, 238050788423 / 1000000000⟩]

end Csg
