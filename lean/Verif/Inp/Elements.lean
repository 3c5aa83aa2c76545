import Verif.Py.Lit
/-!
# Natural isotopes of the elements

Models `ELEMENTS` (src/pymcnp/_elements.py:8-4453); the lines of every element are given beside it.  Written by a script that reads the file as
text.  Abundances are given in units of 10⁻⁹ and masses in units of 10⁻¹², exactly; masses of isotopes without an abundance are left out.
-/
namespace Elements
open Py

/-- An entry of `ELEMENTS`: the symbol, the atomic number, and mass number, abundance and mass of the isotopes under `fraction`. -/
structure Element where
  symbol : Str
  z : Nat
  isotopes : List (Nat × Nat × Nat)

/-- src/pymcnp/_elements.py -/
def table0 : List Element := [
  ⟨c!"H", 1, [(1, 999885000, 1007825032230), (2, 115000, 2014101778120)]⟩ /- 9-24 -/ ,
  ⟨c!"He", 2, [(3, 1340, 3016029320100), (4, 999998660, 4002603254130)]⟩ /- 25-41 -/ ,
  ⟨c!"Li", 3, [(6, 75900000, 6015122887400), (7, 924100000, 7016003436600)]⟩ /- 42-61 -/ ,
  ⟨c!"Be", 4, [(9, 1000000000, 9012183065000)]⟩ /- 62-81 -/ ,
  ⟨c!"B", 5, [(10, 199000000, 10012936950000), (11, 801000000, 11009305360000)]⟩ /- 82-106 -/ ,
  ⟨c!"C", 6, [(12, 989300000, 12000000000000), (13, 10700000, 13003354835070)]⟩ /- 107-131 -/ ,
  ⟨c!"N", 7, [(14, 996360000, 14003074004430), (15, 3640000, 15000108898880)]⟩ /- 132-156 -/ ,
  ⟨c!"O", 8, [(16, 997570000, 15994914619570), (17, 380000, 16999131756500), (18, 2050000, 17999159612860)]⟩ /- 157-183 -/ ,
  ⟨c!"F", 9, [(19, 1000000000, 18998403162730)]⟩ /- 184-209 -/ ,
  ⟨c!"Ne", 10, [(20, 904800000, 19992440176200), (21, 2700000, 20993846685000), (22, 92500000, 21991385114000)]⟩ /- 210-238 -/ ,
  ⟨c!"Na", 11, [(23, 1000000000, 22989769282000)]⟩ /- 239-266 -/ ,
  ⟨c!"Mg", 12, [(24, 789900000, 23985041697000), (25, 100000000, 24985836976000), (26, 110100000, 25982592968000)]⟩ /- 267-298 -/ ,
  ⟨c!"Al", 13, [(27, 1000000000, 26981538530000)]⟩ /- 299-329 -/ ,
  ⟨c!"Si", 14, [(28, 922230000, 27976926534650), (29, 46850000, 28976494664900), (30, 30920000, 29973770136000)]⟩ /- 330-363 -/ ,
  ⟨c!"P", 15, [(31, 1000000000, 30973761998420)]⟩ /- 364-395 -/ ,
  ⟨c!"S", 16, [(32, 949900000, 31972071174400), (33, 7500000, 32971458909800), (34, 42500000, 33967867004000), (36, 100000, 35967080710000)]⟩ /- 396-430 -/ ,
  ⟨c!"Cl", 17, [(35, 757600000, 34968852682000), (37, 242400000, 36965902602000)]⟩ /- 431-463 -/ ,
  ⟨c!"Ar", 18, [(36, 3336000, 35967545105000), (38, 629000, 37962732110000), (40, 996035000, 39962383123700)]⟩ /- 464-497 -/ ,
  ⟨c!"K", 19, [(39, 932581000, 38963706486400), (40, 117000, 39963998166000), (41, 67302000, 40961825257900)]⟩ /- 498-532 -/ ,
  ⟨c!"Ca", 20, [(40, 969410000, 39962590863000), (42, 6470000, 41958617830000), (43, 1350000, 42958766440000), (44, 20860000, 43955481560000), (46, 40000, 45953689000000), (48, 1870000, 47952522760000)]⟩ /- 533-570 -/ ,
  ⟨c!"Sc", 21, [(45, 1000000000, 44955908280000)]⟩ /- 571-604 -/ ,
  ⟨c!"Ti", 22, [(46, 82500000, 45952627720000), (47, 74400000, 46951758790000), (48, 737200000, 47947941980000), (49, 54100000, 48947865680000), (50, 51800000, 49944786890000)]⟩ /- 605-642 -/ ,
  ⟨c!"V", 23, [(50, 2500000, 49947156010000), (51, 997500000, 50943957040000)]⟩ /- 643-678 -/ ,
  ⟨c!"Cr", 24, [(50, 43450000, 49946041830000), (52, 837890000, 51940506230000), (53, 95010000, 52940648150000), (54, 23650000, 53938879160000)]⟩ /- 679-716 -/ ,
  ⟨c!"Mn", 25, [(55, 1000000000, 54938043910000)]⟩ /- 717-752 -/ ,
  ⟨c!"Fe", 26, [(54, 58450000, 53939608990000), (56, 917540000, 55934936330000), (57, 21190000, 56935392840000), (58, 2820000, 57933274430000)]⟩ /- 753-793 -/ ,
  ⟨c!"Co", 27, [(59, 1000000000, 58933194290000)]⟩ /- 794-831 -/ ,
  ⟨c!"Ni", 28, [(58, 680770000, 57935342410000), (60, 262230000, 59930785880000), (61, 11399000, 60931055570000), (62, 36346000, 61928345370000), (64, 9255000, 63927966820000)]⟩ /- 832-875 -/ ,
  ⟨c!"Cu", 29, [(63, 691500000, 62929597720000), (65, 308500000, 64927789700000)]⟩ /- 876-915 -/ ,
  ⟨c!"Zn", 30, [(64, 491700000, 63929142010000), (66, 277300000, 65926033810000), (67, 40400000, 66927127750000), (68, 184500000, 67924844550000), (70, 6100000, 69925319200000)]⟩ /- 916-959 -/ ,
  ⟨c!"Ga", 31, [(69, 601080000, 68925573500000), (71, 398920000, 70924702580000)]⟩ /- 960-1000 -/ ,
  ⟨c!"Ge", 32, [(70, 205700000, 69924248750000), (72, 274500000, 71922075826000), (73, 77500000, 72923458956000), (74, 365000000, 73921177761000), (76, 77300000, 75921402726000)]⟩ /- 1001-1045 -/ ,
  ⟨c!"As", 33, [(75, 1000000000, 74921594570000)]⟩ /- 1046-1086 -/ ,
  ⟨c!"Se", 34, [(74, 8900000, 73922475934000), (76, 93700000, 75919213704000), (77, 76300000, 76919914154000), (78, 237700000, 77917309280000), (80, 496100000, 79916521800000), (82, 87300000, 81916699500000)]⟩ /- 1087-1131 -/ ,
  ⟨c!"Br", 35, [(79, 506900000, 78918337600000), (81, 493100000, 80916289700000)]⟩ /- 1132-1172 -/ ,
  ⟨c!"Kr", 36, [(78, 3550000, 77920364940000), (80, 22860000, 79916378080000), (82, 115930000, 81913482730000), (83, 115000000, 82914127160000), (84, 569870000, 83911497728200), (86, 172790000, 85910610626900)]⟩ /- 1173-1218 -/ ,
  ⟨c!"Rb", 37, [(85, 721700000, 84911789737900), (87, 278300000, 86909180531000)]⟩ /- 1219-1260 -/ ,
  ⟨c!"Sr", 38, [(84, 5600000, 83913419100000), (86, 98600000, 85909260600000), (87, 70000000, 86908877500000), (88, 825800000, 87905612500000)]⟩ /- 1261-1306 -/ ,
  ⟨c!"Y", 39, [(89, 1000000000, 88905840300000)]⟩ /- 1307-1348 -/ ,
  ⟨c!"Zr", 40, [(90, 514500000, 89904697700000), (91, 112200000, 90905639600000), (92, 171500000, 91905034700000), (94, 173800000, 93906310800000), (96, 28000000, 95908271400000)]⟩ /- 1349-1395 -/]

/-- src/pymcnp/_elements.py -/
def table1 : List Element := [
  ⟨c!"Nb", 41, [(93, 1000000000, 92906373000000)]⟩ /- 1396-1438 -/ ,
  ⟨c!"Mo", 42, [(92, 145300000, 91906807960000), (94, 91500000, 93905084900000), (95, 158400000, 94905838770000), (96, 166700000, 95904676120000), (97, 96000000, 96906018120000), (98, 243900000, 97905404820000), (100, 98200000, 99907471800000)]⟩ /- 1439-1487 -/ ,
  ⟨c!"Tc", 43, []⟩ /- 1488-1529 -/ ,
  ⟨c!"Ru", 44, [(96, 55400000, 95907590250000), (98, 18700000, 97905286800000), (99, 127600000, 98905934100000), (100, 126000000, 99904214300000), (101, 170600000, 100905576900000), (102, 315500000, 101904344100000), (104, 186200000, 103905427500000)]⟩ /- 1530-1581 -/ ,
  ⟨c!"Rh", 45, [(103, 1000000000, 102905498000000)]⟩ /- 1582-1627 -/ ,
  ⟨c!"Pd", 46, [(102, 10200000, 101905602200000), (104, 111400000, 103904030500000), (105, 223300000, 104905079600000), (106, 273300000, 105903480400000), (108, 264600000, 107903891600000), (110, 117200000, 109905172200000)]⟩ /- 1628-1678 -/ ,
  ⟨c!"Ag", 47, [(107, 518390000, 106905091600000), (109, 481610000, 108904755300000)]⟩ /- 1679-1725 -/ ,
  ⟨c!"Cd", 48, [(106, 12500000, 105906459900000), (108, 8900000, 107904183400000), (110, 124900000, 109903006610000), (111, 128000000, 110904182870000), (112, 241300000, 111902762870000), (113, 122200000, 112904408130000), (114, 287300000, 113903365090000), (116, 74900000, 115904763150000)]⟩ /- 1726-1779 -/ ,
  ⟨c!"In", 49, [(113, 42900000, 112904061840000), (115, 957100000, 114903878776000)]⟩ /- 1780-1827 -/ ,
  ⟨c!"Sn", 50, [(112, 9700000, 111904823870000), (114, 6600000, 113902782700000), (115, 3400000, 114903344699000), (116, 145400000, 115901742800000), (117, 76800000, 116902953980000), (118, 242200000, 117901606570000), (119, 85900000, 118903311170000), (120, 325800000, 119902201630000), (122, 46300000, 121903443800000), (124, 57900000, 123905276600000)]⟩ /- 1828-1884 -/ ,
  ⟨c!"Sb", 51, [(121, 572100000, 120903812000000), (123, 427900000, 122904213200000)]⟩ /- 1885-1931 -/ ,
  ⟨c!"Te", 52, [(120, 900000, 119904059300000), (122, 25500000, 121903043500000), (123, 8900000, 122904269800000), (124, 47400000, 123902817100000), (125, 70700000, 124904429900000), (126, 188400000, 125903310900000), (128, 317400000, 127904461280000), (130, 340800000, 129906222748000)]⟩ /- 1932-1985 -/ ,
  ⟨c!"I", 53, [(127, 1000000000, 126904471900000)]⟩ /- 1986-2032 -/ ,
  ⟨c!"Xe", 54, [(124, 952000, 123905892000000), (126, 890000, 125904298300000), (128, 19102000, 127903531000000), (129, 264006000, 128904780861100), (130, 40710000, 129903509349000), (131, 212324000, 130905084060000), (132, 269086000, 131904155085600), (134, 104357000, 133905394660000), (136, 88573000, 135907214484000)]⟩ /- 2033-2088 -/ ,
  ⟨c!"Cs", 55, [(133, 1000000000, 132905451961000)]⟩ /- 2089-2136 -/ ,
  ⟨c!"Ba", 56, [(130, 1060000, 129906320700000), (132, 1010000, 131905061100000), (134, 24170000, 133904508180000), (135, 65920000, 134905688380000), (136, 78540000, 135904575730000), (137, 112320000, 136905827140000), (138, 716980000, 137905247000000)]⟩ /- 2137-2190 -/ ,
  ⟨c!"La", 57, [(138, 888100, 137907114900000), (139, 999111900, 138906356300000)]⟩ /- 2191-2239 -/ ,
  ⟨c!"Ce", 58, [(136, 1850000, 135907129210000), (138, 2510000, 137905991000000), (140, 884500000, 139905443100000), (142, 111140000, 141909250400000)]⟩ /- 2240-2289 -/ ,
  ⟨c!"Pr", 59, [(141, 1000000000, 140907657600000)]⟩ /- 2290-2336 -/ ,
  ⟨c!"Nd", 60, [(142, 271520000, 141907729000000), (143, 121740000, 142909820000000), (144, 237980000, 143910093000000), (145, 82930000, 144912579300000), (146, 171890000, 145913122600000), (148, 57560000, 147916899300000), (150, 56380000, 149920902200000)]⟩ /- 2337-2388 -/ ,
  ⟨c!"Pm", 61, []⟩ /- 2389-2432 -/ ,
  ⟨c!"Sm", 62, [(144, 30700000, 143912006500000), (147, 149900000, 146914904400000), (148, 112400000, 147914829200000), (149, 138200000, 148917192100000), (150, 73800000, 149917282900000), (152, 267500000, 151919739700000), (154, 227500000, 153922216900000)]⟩ /- 2433-2484 -/ ,
  ⟨c!"Eu", 63, [(151, 478100000, 150919857800000), (153, 521900000, 152921238000000)]⟩ /- 2485-2531 -/ ,
  ⟨c!"Gd", 64, [(152, 2000000, 151919799500000), (154, 21800000, 153920874100000), (155, 148000000, 154922630500000), (156, 204700000, 155922131200000), (157, 156500000, 156923968600000), (158, 248400000, 157924112300000), (160, 218600000, 159927062400000)]⟩ /- 2532-2582 -/ ,
  ⟨c!"Tb", 65, [(159, 1000000000, 158925354700000)]⟩ /- 2583-2627 -/ ,
  ⟨c!"Dy", 66, [(156, 560000, 155924284700000), (158, 950000, 157924415900000), (160, 23290000, 159925204600000), (161, 188890000, 160926940500000), (162, 254750000, 161926805600000), (163, 248960000, 162928738300000), (164, 282600000, 163929181900000)]⟩ /- 2628-2677 -/ ,
  ⟨c!"Ho", 67, [(165, 1000000000, 164930328800000)]⟩ /- 2678-2721 -/ ,
  ⟨c!"Er", 68, [(162, 1390000, 161928788400000), (164, 16010000, 163929208800000), (166, 335030000, 165930299500000), (167, 228690000, 166932054600000), (168, 269780000, 167932376700000), (170, 149100000, 169935470200000)]⟩ /- 2722-2770 -/ ,
  ⟨c!"Tm", 69, [(169, 1000000000, 168934217900000)]⟩ /- 2771-2814 -/ ,
  ⟨c!"Yb", 70, [(168, 1230000, 167933889600000), (170, 29820000, 169934766400000), (171, 140900000, 170936330200000), (172, 216800000, 171936385900000), (173, 161030000, 172938215100000), (174, 320260000, 173938866400000), (176, 129960000, 175942576400000)]⟩ /- 2815-2862 -/ ,
  ⟨c!"Lu", 71, [(175, 974010000, 174940775200000), (176, 25990000, 175942689700000)]⟩ /- 2863-2907 -/ ,
  ⟨c!"Hf", 72, [(174, 1600000, 173940046100000), (176, 52600000, 175941407600000), (177, 186000000, 176943227700000), (178, 272800000, 177943705800000), (179, 136200000, 178945823200000), (180, 350800000, 179946557000000)]⟩ /- 2908-2957 -/ ,
  ⟨c!"Ta", 73, [(180, 120100, 179947464800000), (181, 999879900, 180947995800000)]⟩ /- 2958-3004 -/ ,
  ⟨c!"W", 74, [(180, 1200000, 179946710800000), (182, 265000000, 181948203940000), (183, 143100000, 182950222750000), (184, 306400000, 183950930920000), (186, 284300000, 185954362800000)]⟩ /- 3005-3054 -/ ,
  ⟨c!"Re", 75, [(185, 374000000, 184952954500000), (187, 626000000, 186955750100000)]⟩ /- 3055-3103 -/ ,
  ⟨c!"Os", 76, [(184, 200000, 183952488500000), (186, 15900000, 185953835000000), (187, 19600000, 186955747400000), (188, 132400000, 187955835200000), (189, 161500000, 188958144200000), (190, 262600000, 189958443700000), (192, 407800000, 191961477000000)]⟩ /- 3104-3159 -/ ,
  ⟨c!"Ir", 77, [(191, 373000000, 190960589300000), (193, 627000000, 192962921600000)]⟩ /- 3160-3209 -/ ,
  ⟨c!"Pt", 78, [(190, 120000, 189959929700000), (192, 7820000, 191961038700000), (194, 328600000, 193962680900000), (195, 337800000, 194964791700000), (196, 252100000, 195964952090000), (198, 73560000, 197967894900000)]⟩ /- 3210-3263 -/ ,
  ⟨c!"Au", 79, [(197, 1000000000, 196966568790000)]⟩ /- 3264-3313 -/ ,
  ⟨c!"Hg", 80, [(196, 1500000, 195965832600000), (198, 99700000, 197966768600000), (199, 168700000, 198968280640000), (200, 231000000, 199968326590000), (201, 131800000, 200970302840000), (202, 298600000, 201970643400000), (204, 68700000, 203973493980000)]⟩ /- 3314-3373 -/]

/-- src/pymcnp/_elements.py -/
def table2 : List Element := [
  ⟨c!"Tl", 81, [(203, 295200000, 202972344600000), (205, 704800000, 204974427800000)]⟩ /- 3374-3425 -/ ,
  ⟨c!"Pb", 82, [(204, 14000000, 203973044000000), (206, 241000000, 205974465700000), (207, 221000000, 206975897300000), (208, 524000000, 207976652500000)]⟩ /- 3426-3479 -/ ,
  ⟨c!"Bi", 83, [(209, 1000000000, 208980399100000)]⟩ /- 3480-3528 -/ ,
  ⟨c!"Po", 84, []⟩ /- 3529-3576 -/ ,
  ⟨c!"At", 85, []⟩ /- 3577-3621 -/ ,
  ⟨c!"Rn", 86, []⟩ /- 3622-3666 -/ ,
  ⟨c!"Fr", 87, []⟩ /- 3667-3707 -/ ,
  ⟨c!"Ra", 88, []⟩ /- 3708-3748 -/ ,
  ⟨c!"Ac", 89, []⟩ /- 3749-3786 -/ ,
  ⟨c!"Th", 90, [(232, 1000000000, 232038055800000)]⟩ /- 3787-3826 -/ ,
  ⟨c!"Pa", 91, [(231, 1000000000, 231035884200000)]⟩ /- 3827-3864 -/ ,
  ⟨c!"U", 92, [(234, 54000, 234040952300000), (235, 7204000, 235043930100000), (238, 992742000, 238050788400000)]⟩ /- 3865-3901 -/ ,
  ⟨c!"Np", 93, []⟩ /- 3902-3934 -/ ,
  ⟨c!"Pu", 94, []⟩ /- 3935-3960 -/ ,
  ⟨c!"Am", 95, []⟩ /- 3961-3986 -/ ,
  ⟨c!"Cm", 96, []⟩ /- 3987-4013 -/ ,
  ⟨c!"Bk", 97, []⟩ /- 4014-4040 -/ ,
  ⟨c!"Cf", 98, []⟩ /- 4041-4066 -/ ,
  ⟨c!"Es", 99, []⟩ /- 4067-4092 -/ ,
  ⟨c!"Fm", 100, []⟩ /- 4093-4118 -/ ,
  ⟨c!"Md", 101, []⟩ /- 4119-4142 -/ ,
  ⟨c!"No", 102, []⟩ /- 4143-4165 -/ ,
  ⟨c!"Lr", 103, []⟩ /- 4166-4187 -/ ,
  ⟨c!"Rf", 104, []⟩ /- 4188-4209 -/ ,
  ⟨c!"Db", 105, []⟩ /- 4210-4231 -/ ,
  ⟨c!"Sg", 106, []⟩ /- 4232-4253 -/ ,
  ⟨c!"Bh", 107, []⟩ /- 4254-4275 -/ ,
  ⟨c!"Hs", 108, []⟩ /- 4276-4296 -/ ,
  ⟨c!"Mt", 109, []⟩ /- 4297-4317 -/ ,
  ⟨c!"Ds", 110, []⟩ /- 4318-4338 -/ ,
  ⟨c!"Rg", 111, []⟩ /- 4339-4356 -/ ,
  ⟨c!"Cn", 112, []⟩ /- 4357-4372 -/ ,
  ⟨c!"Nh", 113, []⟩ /- 4373-4388 -/ ,
  ⟨c!"Fl", 114, []⟩ /- 4389-4399 -/ ,
  ⟨c!"Mc", 115, []⟩ /- 4400-4409 -/ ,
  ⟨c!"Uup", 115, []⟩ /- 4410-4416 -/ ,
  ⟨c!"Lv", 116, []⟩ /- 4417-4427 -/ ,
  ⟨c!"Ts", 117, []⟩ /- 4428-4436 -/ ,
  ⟨c!"Uus", 117, []⟩ /- 4437-4443 -/ ,
  ⟨c!"Og", 118, []⟩ /- 4444-4452 -/]

/-- `ELEMENTS` (src/pymcnp/_elements.py:8-4453) -/
def table : List Element := table0 ++ table1 ++ table2

end Elements
