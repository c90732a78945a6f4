import Verif.Lemmas.SGTables

/-! Facts about the symbol tables and the range tables. -/
namespace Hexrd.SpaceGroup

theorem getNum_append (d : List (Nat × List Char)) (e : Nat × List Char) (n : Int) :
    getNum (d ++ [e]) n = (getNum d n).or (if (e.1 : Int) = n then some e.2 else none) := by
  rw [getNum, getNum, List.find?_append]
  cases h : d.find? (fun e => decide ((e.1 : Int) = n)) with
  | some x => simp
  | none =>
    by_cases he : (e.1 : Int) = n
    · simp [he]
    · simp [he]

theorem numToSym_go (l d : List (Nat × List Char)) (n : Int) :
    getNum (l.foldl (fun d e => if d.any (fun f => f.1 == e.1) then d else d ++ [e]) d) n =
      (getNum d n).or (getNum l n) := by
  induction l generalizing d with
  | nil => simp [getNum]
  | cons e l ih =>
    rw [List.foldl_cons, ih]
    have hl : getNum (e :: l) n = if (e.1 : Int) = n then some e.2 else getNum l n := by
      rw [getNum, List.find?_cons]
      by_cases he : (e.1 : Int) = n <;> simp [he, getNum]
    rw [hl]
    by_cases ha : d.any (fun f => f.1 == e.1) = true
    · rw [if_pos ha]
      by_cases he : (e.1 : Int) = n
      · have : ∃ x, getNum d n = some x := by
          obtain ⟨f, hf, ef⟩ := List.any_eq_true.1 ha
          rw [beq_iff_eq] at ef
          have : (d.find? fun e => decide ((e.1 : Int) = n)).isSome = true := by
            rw [List.find?_isSome]
            exact ⟨f, hf, by simp [ef, he]⟩
          obtain ⟨y, hy⟩ := Option.isSome_iff_exists.1 this
          exact ⟨y.2, by rw [getNum, hy]; rfl⟩
        obtain ⟨x, hx⟩ := this
        simp [hx]
      · rw [if_neg he]
    · rw [if_neg ha, getNum_append]
      by_cases he : (e.1 : Int) = n
      · rw [if_pos he, if_pos he]
        cases getNum d n <;> simp
      · rw [if_neg he, if_neg he]
        simp

/-- The number-to-symbol dictionary gives the first symbol listed. -/
theorem numToSym_first (l : List (Nat × List Char)) (n : Int) : getNum (numToSym l) n = getNum l n := by
  rw [numToSym, numToSym_go]
  simp [getNum]

def inTable (l : List (Nat × List Char)) : Bool := l.all fun e => Nat.ble 1 e.1 && Nat.ble e.1 230

theorem getNum_outside (l : List (Nat × List Char)) (h : inTable l = true) (n : Int) (hn : n < 1 ∨ 230 < n) :
    getNum l n = none := by
  rw [getNum, Option.map_eq_none_iff, List.find?_eq_none]
  intro e he
  have := List.all_eq_true.1 h e he
  simp only [Bool.and_eq_true, Nat.ble_eq] at this
  simp only [decide_eq_true_eq]
  omega

theorem getNum_mem (l : List (Nat × List Char)) (n : Int) (h : List Char) (hh : getNum l n = some h) :
    ∃ m : Nat, (m : Int) = n ∧ (m, h) ∈ l := by
  rw [getNum, Option.map_eq_some_iff] at hh
  obtain ⟨⟨m, h'⟩, he, rfl⟩ := hh
  have := List.find?_some he
  simp only [decide_eq_true_eq] at this
  exact ⟨m, this, List.mem_of_find?_eq_some he⟩

set_option maxRecDepth 100000 in
theorem hall_inTable : inTable hallStr = true := by decide +kernel

set_option maxRecDepth 100000 in
theorem hm_inTable : inTable hmStr = true := by decide +kernel

/-- A number for a symbol, so that the kernel compares numbers. -/
def symCode (h : List Char) : Nat := h.foldl (fun a c => a * 128 + c.toNat) 0

/-- No entry after `e` has the same code under another number. -/
noncomputable def noClash (n c : Nat) (l : List (Nat × Nat)) : Bool :=
  List.rec true (fun f _ ih => Bool.rec ih (Bool.and (Nat.beq n f.1) ih) (Nat.beq c f.2)) l

noncomputable def noClashes (l : List (Nat × Nat)) : Bool :=
  List.rec true (fun e l ih => Bool.rec false ih (noClash e.1 e.2 l)) l

theorem noClash_spec (n c : Nat) (l : List (Nat × Nat)) (h : noClash n c l = true) :
    ∀ f ∈ l, c = f.2 → n = f.1 := by
  induction l with
  | nil => intro f hf; cases hf
  | cons g l ih =>
    have h' : (Bool.rec (noClash n c l) (Bool.and (Nat.beq n g.1) (noClash n c l)) (Nat.beq c g.2) : Bool) = true := h
    intro f hf e
    cases hb : Nat.beq c g.2 with
    | false =>
      rw [hb] at h'
      rcases List.mem_cons.1 hf with rfl | hf
      · rw [e] at hb; simp at hb
      · exact ih h' f hf e
    | true =>
      rw [hb] at h'
      have h'' : (Nat.beq n g.1 && noClash n c l) = true := h'
      rw [Bool.and_eq_true, Nat.beq_eq] at h''
      rcases List.mem_cons.1 hf with rfl | hf
      · exact h''.1
      · exact ih h''.2 f hf e

theorem noClashes_spec (l : List (Nat × Nat)) (h : noClashes l = true) :
    ∀ e ∈ l, ∀ f ∈ l, e.2 = f.2 → e.1 = f.1 := by
  induction l with
  | nil => intro e he; cases he
  | cons g l ih =>
    have h' : (Bool.rec false (noClashes l) (noClash g.1 g.2 l) : Bool) = true := h
    cases hb : noClash g.1 g.2 l with
    | false => rw [hb] at h'; cases h'
    | true =>
      rw [hb] at h'
      have hg := noClash_spec _ _ _ hb
      intro e he f hf ef
      rcases List.mem_cons.1 he with rfl | he' <;> rcases List.mem_cons.1 hf with rfl | hf'
      · rfl
      · exact hg f hf' ef
      · exact (hg e he' ef.symm).symm
      · exact ih h' e he' f hf' ef

/-- The codes of `hallStr` and `hmStr`. -/
def hallCodes : List (Nat × Nat) := [
  (1, 1314865), (2, 95686705), (3, 168302969), (3, 1314866), (3, 168302968), (4, 21542780130),
  (4, 168302947), (4, 21542780001), (5, 141039993), (5, 136845689), (5, 153622905), (5, 1069106),
  (5, 1085490), (5, 1200178), (5, 138942840), (5, 141039992), (5, 153622904), (6, 21542689145),
  (6, 168302258), (6, 21542689144), (7, 2757464210659), (7, 352955418964195), (7, 2757464210657),
  (7, 21542689121), (7, 2757464207586), (7, 21542689122), (7, 2757464210530), (7, 352955418947939),
  (7, 2757464210531), (8, 18053028217), (8, 17516157305), (8, 19663640953), (8, 136844978), (8, 138942130),
  (8, 153622194), (8, 17784592760), (8, 18053028216), (8, 19663640952), (9, 2310787611875),
  (9, 286984721297635), (9, 2516946042081), (9, 2242068135137), (9, 295780814319971), (9, 2516946042083),
  (9, 17516157281), (9, 2276427870563), (9, 19663640930), (9, 17784592738), (9, 2242068132067),
  (9, 19663640929), (9, 2276427873378), (9, 295780814303587), (9, 2516946041955), (9, 2310787611747),
  (9, 291382767792483), (9, 2516946041954), (10, 12247898489), (10, 95686706), (10, 12247898488),
  (11, 1567731006690), (11, 12247898467), (11, 1567731006561), (12, 12220635513), (12, 12216441209),
  (12, 12233218425), (12, 95440946), (12, 95457330), (12, 95572018), (12, 12218538360), (12, 12220635512),
  (12, 12233218424), (13, 1567731006691), (13, 200669568856291), (13, 1567731006689), (13, 12247898465),
  (13, 1567731003618), (13, 12247898466), (13, 1567731006562), (13, 200669568840035), (13, 1567731006563),
  (14, 200669568856419), (14, 1567731006702), (14, 200669568856290), (14, 1567731003619), (14, 12247898478),
  (14, 1567731003747), (14, 200669568839906), (14, 1567731006574), (14, 200669568839907),
  (15, 1564241345763), (15, 200154172780771), (15, 1565851958497), (15, 1563704474849),
  (15, 200222892257635), (15, 1565851958499), (15, 12216441185), (15, 1563972907363), (15, 12233218402),
  (15, 12218538338), (15, 1563704471779), (15, 12233218401), (15, 1563972910178), (15, 200222892241251),
  (15, 1565851958371), (15, 1564241345635), (15, 200188532502883), (15, 1565851958370), (16, 21542768690),
  (17, 2757475487794), (17, 352956858243425), (17, 2757474392418), (18, 352956722229474),
  (18, 352956861435954), (18, 5782845183406944483), (19, 5782845183406944482), (20, 2310798889010),
  (20, 286986160576865), (20, 2276438055266), (21, 18053107762), (21, 17516236850), (21, 17784672306),
  (22, 18858414130), (23, 19663720498), (24, 322170534762851), (25, 2757474391730), (25, 2757464199218),
  (25, 352955417499314), (26, 352956862437042), (26, 45178478391941475), (26, 45178293576014177),
  (26, 352955417500001), (26, 45178293439912290), (26, 45178293578110642), (27, 352956722141539),
  (27, 352955418562610), (27, 5782821577998162274), (28, 352956722141537), (28, 352956722141538),
  (28, 352955418578994), (28, 352955418595378), (28, 5782821578266597731), (28, 5782821577729726817),
  (29, 5782845234168508643), (29, 45178478391941474), (29, 45178293578111329), (29, 5782821577870023009),
  (29, 740201162001722595683), (29, 740201161949405032674), (30, 45178460434116963), (30, 45178460434116835),
  (30, 45178293577109554), (30, 45178293577093170), (30, 94745748731788085997794),
  (30, 94745748736220492247395), (31, 45178477995366066), (31, 740204187874124149091),
  (31, 740201161967094509794), (31, 45178293440000227), (31, 5782821560308773219), (31, 5782821577867925170),
  (32, 45178460434116834), (32, 45178293579206706), (32, 94745748731822445736163), (33, 45178478391941486),
  (33, 5782845234168508642), (33, 5782821578138458465), (33, 45178293603277153), (33, 740201162396081631459),
  (33, 740201161967362857326), (34, 352956722141550), (34, 352955418775602), (34, 5782821581219387758),
  (35, 2310797792946), (35, 2242068123698), (35, 291382766343858), (36, 295782257792690),
  (36, 37860128997464419), (36, 36734044274694497), (36, 286984719833441), (36, 37296994092013922),
  (36, 37296994230212274), (37, 295782117497187), (37, 286984720896050), (37, 4774015261467171170),
  (38, 2242078316210), (38, 2276438054578), (38, 2276427862066), (38, 2310787600434), (38, 295780812854962),
  (38, 286984719832754), (39, 286986024474979), (39, 291384070986083), (39, 291382767439922),
  (39, 295780813934642), (39, 4846072855505099106), (39, 4701957667697678691), (40, 286986024474977),
  (40, 291384070986082), (40, 291382767423538), (40, 295780813951026), (40, 4846072855773534563),
  (40, 4701957667160807777), (41, 36734211132797155), (41, 37297161086218595), (41, 37296994231308338),
  (41, 37859944184729650), (41, 79398057666894145302883), (41, 77036874421061276184803), (42, 2413877008050),
  (42, 2413866815538), (42, 308974952388274), (43, 308976257030500), (43, 308974953500722),
  (43, 5062245638155753828), (44, 2516956223154), (44, 2516946030642), (44, 322169091921586),
  (45, 322170396563811), (45, 322169092984882), (45, 5278418419732666722), (46, 322170396563809),
  (46, 322170396563810), (46, 322169093001266), (46, 322169093017650), (46, 5278418420001102179),
  (46, 5278418419464231265), (47, 1567730995250), (48, 5782842936870525166), (48, 420834586841603420515),
  (49, 200669567392099), (49, 200669568454706), (49, 25685704764299618), (50, 740203895919427219682),
  (50, 3287770209700026722), (50, 740203895919427219811), (50, 3287770209830351203),
  (50, 740203895919427219683), (50, 25685704762202467), (51, 25685704762202465), (51, 200669568471090),
  (51, 200669567392098), (51, 25685704766396771), (51, 200669568487474), (51, 200669567392097),
  (52, 3287770209561915747), (52, 25685704764299630), (52, 25685704789465442), (52, 3287770209700026723),
  (52, 3287770209700026734), (52, 3287770213051576675), (53, 25685704763297842), (53, 420834586876231594339),
  (53, 420834586841603420386), (53, 25685704626188515), (53, 25685704626188643), (53, 25685704763281458),
  (54, 3287770209561915619), (54, 25685704764299619), (54, 25685704762202466), (54, 3287770209702123875),
  (54, 3287770209970559330), (54, 3287770209830351074), (55, 25685704626188514), (55, 25685704765394994),
  (55, 420834586841871855843), (56, 420834586841603420387), (56, 420834586841871855971),
  (56, 420834586876231594210), (57, 25685704766396770), (57, 3287770210098786531), (57, 3287770209702123873),
  (57, 25685704764299617), (57, 3287770209561915618), (57, 3287770209970559331), (58, 200669567392110),
  (58, 200669568667698), (58, 25685704789465454), (59, 12127500631031584983380194),
  (59, 3287770209700026721), (59, 12127505414129816913604963), (59, 3287770210098786659),
  (59, 198697047524511587318866145507), (59, 25685704766396769), (60, 3287770213051576546),
  (60, 25685704789465443), (60, 25685704762202478), (60, 3287770209970559342), (60, 3287770209702123874),
  (60, 3287770209830351075), (61, 420834586841871855842), (61, 420834586876231594211),
  (62, 3287770209702123886), (62, 3287770209970559329), (62, 3287770210098786530), (62, 3287770213051576547),
  (62, 25685704789465441), (62, 25685704766396782), (63, 200222891888690), (63, 25628530161752419),
  (63, 25619734064535905), (63, 200154171316577), (63, 200188531054946), (63, 200188532133938),
  (64, 25628530160750642), (64, 419897838153738531171), (64, 419753722931302936803), (64, 25619733928521955),
  (64, 25624131975033187), (64, 25624132114239538), (65, 1564241334322), (65, 1563704463410),
  (65, 1563972898866), (66, 200222890793315), (66, 200154172379186), (66, 25624132113144162),
  (67, 200222891872306), (67, 25628530159655266), (67, 25619734068730211), (67, 200154171316579),
  (67, 200188531054947), (67, 200188532150322), (68, 620300059440315134307), (68, 3280451860435874147),
  (68, 620300059440315134307), (68, 25628530159655267), (68, 601853315366605582563), (68, 25619734064535907),
  (68, 601853315366605582563), (68, 3279325960400804195), (68, 611076687403460358499),
  (68, 3279888910622660962), (68, 611076687403460358499), (68, 3279888910482452835), (69, 1565046640690),
  (70, 5062266996491245796), (70, 420114011593787620215), (71, 1565851947058), (72, 200429049223523),
  (72, 200429050286130), (72, 25654918438721890), (73, 25654918438721891), (73, 25654918436624738),
  (74, 200429050302514), (74, 25654918436624737), (74, 25654918440819043), (74, 200429049223522),
  (74, 200429049223521), (74, 200429050318898), (75, 1314868), (76, 168303223), (77, 168303203),
  (78, 21542810103), (79, 1200180), (80, 19663761783), (81, 168302260), (82, 153622196), (83, 95686708),
  (84, 12247898723), (85, 740205309341624725730), (85, 12247898721), (86, 45178550064208110),
  (86, 1567731036515), (87, 95572020), (88, 675641710203242312055), (88, 1565851988196), (89, 21542801458),
  (90, 5782853979231531234), (91, 352957441251683), (92, 740205309364951365495), (93, 2757479682098),
  (94, 352957422377326), (95, 45178547293657443), (96, 740205367237795148151), (97, 19663753266),
  (98, 5278450860962918775), (99, 2757478586034), (100, 45178529153593570), (101, 45178547111418211),
  (102, 45178550064208238), (103, 352957259012451), (104, 352957259012462), (105, 352957399307954),
  (106, 5782854030261530850), (107, 2516960417458), (108, 322170933434723), (109, 41237897351272114),
  (110, 5278450860962830691), (111, 2757464231986), (112, 352955421694307), (113, 45178293976871138),
  (114, 352955421694318), (115, 352955421693618), (116, 45178293976783203), (117, 5782821629028249826),
  (118, 45178293976783214), (119, 322169096115890), (120, 41237644302834019), (121, 2516946063410),
  (122, 41237644302922103), (123, 1567731028018), (124, 200669571586403), (125, 740205021819334062306),
  (125, 25685705299073378), (126, 5782851732963547374), (126, 3287770278281392483), (127, 25685705163059426),
  (128, 200669571586414), (129, 198697349746743118904945307874), (129, 25685705299073377),
  (130, 1552323044896431045432078562), (130, 3287770278281392355), (131, 200669572681778),
  (132, 25685705303267683), (133, 94746286624439223933166), (133, 3287770278421600610),
  (134, 740205364253291141358), (134, 420834595637964878179), (135, 3287770278818263266),
  (136, 25685705326336366), (137, 94746286624442176723182), (137, 3287770278421600609),
  (138, 12127524687928169633372398), (138, 420834595637964878051), (139, 1565851979826),
  (140, 200429053417827), (141, 181366190571030233667320181111), (141, 25654918976704562),
  (142, 181366190571030229269273670007), (142, 3283829629018184035), (143, 1314867), (144, 168303025),
  (145, 168303026), (146, 1347635), (146, 168303018), (147, 95686707), (148, 95719475), (148, 12247898538),
  (149, 21542785074), (150, 2757476489506), (151, 25433234093465555403125847234729), (152, 352957026015522),
  (153, 3255453983306404205434175241279657), (154, 352957028112674), (155, 2826195966242),
  (155, 2757476651058), (156, 352956990576930), (157, 2757476488882), (158, 45178494793847139),
  (159, 352956990576995), (160, 361753083599138), (160, 352957011334834), (161, 46304394700689763),
  (161, 45178497450858862), (162, 1567731011634), (163, 200669569489251), (164, 200669569489186),
  (165, 25685704894615907), (166, 200738288965922), (166, 200669569650738), (167, 25694500987638115),
  (167, 25685704915294574), (168, 1314870), (169, 168303409), (170, 168303413), (171, 168303410),
  (172, 168303412), (173, 168303459), (174, 168302262), (175, 95686710), (176, 12247898979),
  (177, 21542834226), (178, 25433292121900073584764197230761), (179, 198697599424710807750615505065),
  (180, 25433292273020624357154879969449), (181, 3255461449632266145383958226622633), (182, 352957936179555),
  (183, 2757482780338), (184, 352957795883363), (185, 352957936178866), (186, 45178615830894947),
  (187, 2757464264754), (188, 352955426983986), (189, 352955425887922), (190, 5782821715705551203),
  (191, 1567731060786), (192, 200669575780707), (193, 200669576876082), (194, 25685705840138595),
  (195, 352956722221107), (196, 308976257110067), (197, 322170396643379), (198, 94746135484939378397235),
  (199, 5278442041554554931), (200, 25685704626180147), (201, 94746098677688258222318),
  (201, 6894953870812830441721907), (202, 25641724161069107), (203, 82940182470514145188068),
  (203, 6883147965952616369606707), (204, 25654918300602419), (205, 6894953870817228486119475),
  (206, 420330183700019466291), (207, 352957259092019), (208, 45178550064287795), (209, 308976793980979),
  (210, 39549047845720115), (211, 322170933514291), (212, 12127523789114750214377523),
  (213, 94746280167475454185523), (214, 675641709550418579507), (215, 45178293976862771),
  (216, 39548794442649651), (217, 41237644302913587), (218, 5782821649938944051), (219, 5062245706606874675),
  (220, 86481608517132890984499), (221, 25685705163051059), (222, 94746242792876334078190),
  (222, 53866828239362334445619), (223, 3287770281771044915), (224, 12127524687925923633912046),
  (224, 6894954015495366517510195), (225, 25641724697940019), (226, 3282140779284041779),
  (227, 10616366692831696786249956), (227, 6883148110635152445394995), (228, 1358894936682457188639994340),
  (228, 881042956792024269653397555), (229, 25654918837473331), (230, 53802264641833927233587)]
def hmCodes : List (Nat × Nat) := [
  (1, 1314865), (2, 168302257), (3, 352956453785649), (3, 352956453769266), (3, 352956722204721),
  (4, 45178426084839473), (4, 45178426082466097), (4, 45178464970231857), (5, 295781849141297),
  (5, 286985756119089), (5, 322170128207921), (5, 286985756102706), (5, 291383802613810),
  (5, 322170128191538), (5, 291384071049265), (5, 295782117560369), (5, 322170396626993),
  (6, 352956454752305), (6, 352956453769325), (6, 352972559896625), (7, 352956454588465),
  (7, 352956454768689), (7, 352956454555697), (7, 352956453769313), (7, 352956453769326),
  (7, 352956453769314), (7, 352969607106609), (7, 352972828332081), (7, 352969875542065),
  (8, 295781850107953), (8, 286985757085745), (8, 322170129174577), (8, 286985756102765),
  (8, 291383802613869), (8, 322170128191597), (8, 291399908741169), (8, 295797955252273),
  (8, 322186234318897), (9, 295781849944113), (9, 286985757102129), (9, 322170128977969),
  (9, 286985756889137), (9, 295781850124337), (9, 322170129010737), (9, 286985756102753),
  (9, 291383802613870), (9, 322170128191586), (9, 291383802613858), (9, 286985756102766),
  (9, 322170128191585), (9, 291396955951153), (9, 295798223687729), (9, 322183549964337),
  (9, 295795270897713), (9, 291400177176625), (9, 322183281528881), (10, 5782838538856517681),
  (10, 5782838538555660269), (10, 5782843468104355889), (11, 740203332974042370097),
  (11, 740203332935124539373), (11, 740203970603780952113), (12, 4846089816363454513),
  (12, 4701974628287598641), (12, 5278435380591022129), (12, 4701974627986741229), (12, 4774032222024669165),
  (12, 5278435380290164717), (12, 4774037151573364785), (12, 4846094745611292721), (12, 5278440309838860337),
  (13, 5782838538856353841), (13, 5782838538856534065), (13, 5782838538856321073), (13, 5782838538555660257),
  (13, 5782838538555660270), (13, 5782838538555660258), (13, 5782843465151565873), (13, 5782843468372791345),
  (13, 5782843465420001329), (14, 740203332974042206257), (14, 740203332974042386481),
  (14, 740203332974042173489), (14, 740203332935124539361), (14, 740203332935124539374),
  (14, 740203332935124539362), (14, 740203970600828162097), (14, 740203970604049387569),
  (14, 740203970601096597553), (15, 4846089816363290673), (15, 4701974628287615025),
  (15, 5278435380590825521), (15, 4701974628287402033), (15, 4846089816363470897), (15, 5278435380590858289),
  (15, 4701974627986741217), (15, 4774032222024669166), (15, 5278435380290164706), (15, 4774032222024669154),
  (15, 4701974627986741230), (15, 5278435380290164705), (15, 4774037148620574769), (15, 4846094745879728177),
  (15, 5278440307154505777), (15, 4846094742926938161), (15, 4774037151841800241), (15, 5278440306886070321),
  (16, 352956722221106), (17, 45178460444301617), (17, 45178464970248242), (17, 45178460444577842),
  (18, 5782843516192051250), (18, 5782842936905963825), (18, 5782843516191775025),
  (19, 740203970072582560049), (20, 37860111049824561), (20, 36734215668928562), (20, 37297161096679474),
  (21, 295782117576754), (21, 286986024554546), (21, 291384071065650), (22, 308976257110066),
  (23, 322170396643378), (24, 675640365814599129393), (25, 352972560879666), (25, 352956723187821),
  (25, 352972559913069), (26, 45180487771625777), (26, 45180144195213617), (26, 45178464971214945),
  (26, 45178464971018349), (26, 45180109712019565), (26, 45180487669141602), (27, 352969876361266),
  (27, 352956722991201), (27, 352969607123042), (28, 352972560683058), (28, 352969608089650),
  (28, 352956723187810), (28, 352956723023981), (28, 352969875558509), (28, 352972559913057),
  (29, 45180144170047793), (29, 45180109814503729), (29, 45178464971018338), (29, 45178464971051105),
  (29, 45180144071757922), (29, 45180109712019553), (30, 352972829151282), (30, 352969876541490),
  (30, 352956723204193), (30, 352956722991214), (30, 352969607123054), (30, 352972828348514),
  (31, 45180487794694449), (31, 45180522152335665), (31, 45178464971214958), (31, 45178464971231341),
  (31, 45180522028879981), (31, 45180487669141614), (32, 352969607893042), (32, 352956723023970),
  (32, 352969875558497), (33, 45180522127169841), (33, 45180109837572401), (33, 45178464971231330),
  (33, 45178464971051118), (33, 45180144071757934), (33, 45180522028879969), (34, 352972829331506),
  (34, 352956723204206), (34, 352972828348526), (35, 295797956235314), (35, 286986025521261),
  (35, 291399908757613), (36, 37862138377148721), (36, 37861794800736561), (36, 36734215669895265),
  (36, 36734215669698669), (36, 37298810364121197), (36, 37299188321243234), (37, 295795271716914),
  (37, 286986025324641), (37, 291396955967586), (38, 287001863213106), (38, 291399909724210),
  (38, 291384072032365), (38, 295782118543469), (38, 295797955268717), (38, 287001862246509),
  (39, 286998910423090), (39, 291399909527602), (39, 291384071868525), (39, 295782118543458),
  (39, 295797955268705), (39, 286999177891949), (40, 287001863016498), (40, 291396956934194),
  (40, 291384072032354), (40, 295782118379629), (40, 295795270914157), (40, 287001862246497),
  (41, 286998910226482), (41, 291396956737586), (41, 291384071868514), (41, 295782118379618),
  (41, 295795270914145), (41, 286999177891937), (42, 308992095768626), (42, 308976258076781),
  (42, 308992094802029), (43, 308989679702066), (43, 308976257929316), (43, 308989678882916),
  (44, 322186235301938), (44, 322170397610093), (44, 322186234335341), (45, 322183282315314),
  (45, 322170397446242), (45, 322183549980769), (46, 322186235105330), (46, 322183282511922),
  (46, 322170397610082), (46, 322170397446253), (46, 322183549980781), (46, 322186234335329),
  (47, 352972560879725), (48, 5783106835768384817), (48, 5783106835768384818), (49, 352969876361325),
  (49, 352972560683105), (49, 352969608089698), (50, 5783054055720590641), (50, 5783054055720590642),
  (50, 5783106832815398193), (50, 5783106832815398194), (50, 5783058457256549681), (50, 5783058457256549682),
  (51, 352972560879713), (51, 352972560879714), (51, 352969608089709), (51, 352969876525165),
  (51, 352972560715885), (51, 352972560683117), (52, 352972829331553), (52, 352972829331554),
  (52, 352969608106094), (52, 352969876541550), (52, 352972829151342), (52, 352972829118574),
  (53, 352972560896097), (53, 352972829315170), (53, 352969608089710), (53, 352969876541549),
  (53, 352972829151341), (53, 352972560683118), (54, 352969876361313), (54, 352969876361314),
  (54, 352969607893089), (54, 352969876328545), (54, 352969607925858), (54, 352969607893090),
  (55, 352969607893101), (55, 352972560715874), (55, 352969876525153), (56, 352969876361326),
  (56, 352972829118561), (56, 352969608106082), (57, 352969607925869), (57, 352969876328557),
  (57, 352972560715873), (57, 352972560683106), (57, 352969608089697), (57, 352969876525154),
  (58, 352972829331565), (58, 352972560896110), (58, 352972829315182), (59, 5783102437453438257),
  (59, 5783102437453438258), (59, 5783106835499932977), (59, 5783106835499932978), (59, 5783102437721857329),
  (59, 5783102437721857330), (60, 352969607925870), (60, 352969876328558), (60, 352972829151329),
  (60, 352972829118562), (60, 352969608106081), (60, 352969876541538), (61, 352969607925857),
  (61, 352969876328546), (62, 352972829315169), (62, 352972560896098), (62, 352969608106093),
  (62, 352969876525166), (62, 352972560715886), (62, 352972829118573), (63, 295797956071533),
  (63, 295795271880813), (63, 287001863213153), (63, 287001863016557), (63, 291396956934253),
  (63, 291399909724258), (64, 295797956071521), (64, 295795271880802), (64, 286998910423137),
  (64, 286999178661997), (64, 291396956770413), (64, 291399909527650), (65, 295797956235373),
  (65, 287001863213165), (65, 291399909724269), (66, 295795271716973), (66, 287001863016545),
  (66, 291396956934242), (67, 295797956235361), (67, 295797956235362), (67, 286998910423149),
  (67, 286999178858605), (67, 291399909560429), (67, 291399909527661), (68, 4846309731810696497),
  (68, 4846309731810696498), (68, 4846309731810712881), (68, 4846309731810712882), (68, 4702190145151458609),
  (68, 4702190145151458610), (68, 4702194543197969713), (68, 4702194543197969714), (68, 4774247739726273841),
  (68, 4774247739726273842), (68, 4774247739189402929), (68, 4774247739189402930), (69, 308992095768685),
  (70, 5062486912239476017), (70, 5062486912239476018), (71, 322186235301997), (72, 322183282315373),
  (72, 322186235138146), (72, 322183550947425), (73, 322183282348129), (73, 322183550750818),
  (74, 322186235301985), (74, 322186235301986), (74, 322183282511981), (74, 322183550947437),
  (74, 322186235138157), (74, 322186235105389), (75, 1314868), (76, 168303153), (77, 168303154),
  (78, 168303155), (79, 1200180), (80, 153623089), (81, 168302260), (82, 153622196), (83, 21542803437),
  (84, 2757478881261), (85, 352957291535665), (85, 352957291535666), (86, 45178533990604081),
  (86, 45178533990604082), (87, 19663755245), (88, 41237884048006449), (88, 41237884048006450),
  (89, 352957259092018), (90, 45178533958144050), (91, 45178533689724978), (92, 5782852312285073458),
  (93, 45178533958160434), (94, 5782852346644811826), (95, 45178534226595890), (96, 5782852381004550194),
  (97, 322170933514290), (98, 41237884015775794), (99, 352957260058733), (100, 352957259878509),
  (101, 45178533958963309), (102, 45178533959143533), (103, 352957259894883), (104, 352957260075107),
  (105, 45178533959127139), (106, 45178533958946915), (107, 322170934481005), (108, 322170934317165),
  (109, 41237884016742500), (110, 41237884016578660), (111, 45178293976862829), (112, 45178293976862819),
  (113, 5782821629038710893), (114, 5782821629038710883), (115, 45178293977829426), (116, 45178293977665586),
  (117, 45178293977649202), (118, 45178293977845810), (119, 41237644303880242), (120, 41237644303716402),
  (121, 41237644302913645), (122, 41237644302913636), (123, 5782852264198361197), (124, 5782852264198197347),
  (125, 94746251501021043580209), (125, 94746251501021043580210), (126, 94746251501024264641841),
  (126, 94746251501024264641842), (127, 5782852264198180973), (128, 5782852264198377571),
  (129, 94746251501023996370225), (129, 94746251501023996370226), (130, 94746251501021311851825),
  (130, 94746251501021311851826), (131, 740205100901735288931), (132, 740205100901735125101),
  (133, 12127520373178426067574065), (133, 12127520373178426067574066), (134, 12127520373178429288963377),
  (134, 12127520373178429288963378), (135, 740205100901735108707), (136, 740205100901735305325),
  (137, 12127520373178429020364081), (137, 12127520373178429020364082), (138, 12127520373178426336173361),
  (138, 12127520373178426336173362), (139, 5278449105932865645), (140, 5278449105932701805),
  (141, 11069710208900859849940273), (141, 11069710208900859849940274), (142, 11069710208900857165585713),
  (142, 11069710208900857165585714), (143, 1314867), (144, 168303025), (145, 168303026), (146, 1347635),
  (146, 1347635), (147, 168302259), (148, 172496563), (148, 172496563), (149, 352956990640178),
  (150, 352956990656561), (151, 45178499329970226), (152, 45178499329986609), (153, 45178499598405682),
  (154, 45178499598422065), (155, 172497330), (155, 172497330), (156, 352956991623217),
  (157, 352956990640237), (158, 352956991459377), (159, 352956990640227), (160, 22079656045),
  (160, 22079656045), (161, 22079656035), (161, 22079656035), (162, 45178293708410989),
  (163, 45178293708410979), (164, 45178293709393969), (165, 45178293709230129), (166, 2826183692397),
  (166, 2826183692397), (167, 2826183692387), (167, 2826183692387), (168, 1314870), (169, 168303409),
  (170, 168303413), (171, 168303410), (172, 168303412), (173, 168303411), (174, 168302262),
  (175, 21542836205), (176, 2757483091949), (177, 352957795962930), (178, 45178602409201714),
  (179, 45178603482943538), (180, 45178602677637170), (181, 45178603214508082), (182, 45178602946072626),
  (183, 352957796929645), (184, 352957796765795), (185, 45178602946875501), (186, 45178602947039331),
  (187, 45178294514700338), (188, 45178294514536498), (189, 45178294513733741), (190, 45178294513733731),
  (191, 5782861060291383405), (192, 5782861060291219555), (193, 740206231199688478829),
  (194, 740206231199688642659), (195, 21542768691), (196, 18858414131), (197, 19663720499),
  (198, 2757474668595), (199, 2516956500019), (200, 2757598123699), (201, 45180522018430257),
  (201, 45180522018430258), (202, 2414000740019), (203, 39550678886833457), (203, 39550678886833458),
  (204, 2517079955123), (205, 2757572957875), (206, 2517054789299), (207, 352957259108402),
  (208, 45178533958176818), (209, 308976793997362), (210, 39549034155528242), (211, 322170933530674),
  (212, 45178534226612274), (213, 45178533689741362), (214, 41237884015792178), (215, 45178293976879213),
  (216, 39548794442666093), (217, 41237644302930029), (218, 45178293976879214), (219, 39548794442666083),
  (220, 41237644302930020), (221, 45180487658688621), (222, 740237672749907811633),
  (222, 740237672749907811634), (223, 45180487658688622), (224, 740237672749907795249),
  (224, 740237672749907795250), (225, 39550988124475501), (226, 39550988124475491),
  (227, 647998322881825824049), (227, 647998322881825824050), (228, 647998322881825660209),
  (228, 647998322881825660210), (229, 41239837984739437), (230, 41239425667879012)]

set_option maxRecDepth 100000 in
theorem hallCodes_eq : hallStr.map (fun e => (e.1, symCode e.2)) = hallCodes := by decide +kernel

set_option maxRecDepth 100000 in
theorem hmCodes_eq : hmStr.map (fun e => (e.1, symCode e.2)) = hmCodes := by decide +kernel

set_option maxRecDepth 100000 in
theorem hall_noClash : noClashes hallCodes = true := by decide +kernel

set_option maxRecDepth 100000 in
theorem hm_noClash : noClashes hmCodes = true := by decide +kernel

theorem same_num (l : List (Nat × List Char)) (c : List (Nat × Nat)) (hc : l.map (fun e => (e.1, symCode e.2)) = c)
    (hn : noClashes c = true) : ∀ e ∈ l, ∀ f ∈ l, e.2 = f.2 → e.1 = f.1 := by
  intro e he f hf ef
  refine noClashes_spec c hn (e.1, symCode e.2) ?_ (f.1, symCode f.2) ?_ (congrArg symCode ef)
  · rw [← hc]; exact List.mem_map.2 ⟨e, he, rfl⟩
  · rw [← hc]; exact List.mem_map.2 ⟨f, hf, rfl⟩

theorem symToNum_go (l : List (Nat × List Char)) (h : List Char) (n : Nat) (hn : ∀ f ∈ l, f.2 = h → f.1 = n)
    (acc : Option Nat) (hm : acc = some n ∨ (n, h) ∈ l) :
    l.foldl (fun acc e => if e.2 = h then some e.1 else acc) acc = some n := by
  induction l generalizing acc with
  | nil => exact hm.resolve_right (by simp)
  | cons e l ih =>
    rw [List.foldl_cons]
    apply ih (fun f hf => hn f (List.mem_cons_of_mem _ hf))
    by_cases he : e.2 = h
    · rw [if_pos he, hn e List.mem_cons_self he]
      exact Or.inl rfl
    · rw [if_neg he]
      rcases hm with hm | hm
      · exact Or.inl hm
      · rcases List.mem_cons.1 hm with hm | hm
        · exact absurd (by rw [← hm]) he
        · exact Or.inr hm

/-- Every symbol of the table leads back to its number. -/
theorem symToNum_eq (l : List (Nat × List Char)) (hl : ∀ e ∈ l, ∀ f ∈ l, e.2 = f.2 → e.1 = f.1) (n : Nat)
    (h : List Char) (hm : (n, h) ∈ l) : symToNum l h = some n :=
  symToNum_go l h n (fun f hf e => hl f hf (n, h) hm e) none (Or.inr hm)

/-- The tables agree at a number. -/
def tablesAt (n : Nat) : Bool :=
  match getNum hallStr n, getNum hmStr n, lookupRange pgDictSG n, lookupRange pgDictUC n, latticeTypeZ n with
  | some _, some _, some p, some q, some lt =>
    decide (q.1 = p.1 ∧ q.2.1 = p.2 ∧ ltDict.find? (fun e => e.1 = p.2) = some (p.2, lt) ∧
      ltypeOfLaueGroup p.2 = some lt ∧ Spec.system (Spec.classCensus p.1) = lt ∧
      Spec.system (Spec.classCensus p.2) = lt ∧ latticeType n = some lt)
  | _, _, _, _, _ => false

set_option maxRecDepth 100000 in
theorem tablesRun : (List.range' 1 230).all tablesAt = true := by decide +kernel

theorem lookupRange_outside {α : Type} (d : List (SGRange × α))
    (h : ∀ e ∈ d, 1 ≤ e.1.min ∧ e.1.max ≤ 230) (n : Int) (hn : n < 1 ∨ 230 < n) : lookupRange d n = none := by
  rw [lookupRange]
  suffices H : ∀ acc, d.foldl (fun acc e => if e.1.has n then some e.2 else acc) acc = acc from H none
  induction d with
  | nil => intro acc; rfl
  | cons e d ih =>
    intro acc
    rw [List.foldl_cons]
    have he := h e List.mem_cons_self
    have : e.1.has n = false := by
      rw [SGRange.has, Bool.and_eq_false_iff, decide_eq_false_iff_not, decide_eq_false_iff_not]
      omega
    rw [this]
    exact ih (fun x hx => h x (List.mem_cons_of_mem _ hx)) acc

theorem spaceGroup_symbols (n : Int) (I : SGInfo) (h : spaceGroup n = some I) :
    lookupHall n = some I.hall ∧ lookupHM n = some I.hm := by
  unfold spaceGroup at h
  generalize lookupHall n = x at *
  generalize lookupHM n = y at *
  simp only [Option.bind_eq_bind, Option.bind_eq_some_iff, Option.pure_def] at h
  obtain ⟨hall, rfl, p, _, lt, _, hm, rfl, e⟩ := h
  cases e
  exact ⟨rfl, rfl⟩

end Hexrd.SpaceGroup
