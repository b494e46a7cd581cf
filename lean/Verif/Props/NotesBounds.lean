import Verif.Proofs.NotesBounds
import Verif.Props.Notes
import Verif.Props.TestRedBounds

/-
C79: the sequences of src/notes.txt:348-609 ("More precise bounds (cf. red_bounds.c)") are the best possible ones; they are what
`ct_iteration` and `gs_iteration` of src/test_red_bounds.c print.
-/

namespace Props
open C Spec TestRedBounds NotesBounds
open TestRed (Line)

/-- src/notes.txt:366-387. -/
def option1_ct : List Line :=
    [.bound 0 12288, .bound 1 61432, .bound 2 257978, .bound 3 1043928, .bound 4 4186097, .bound 5 16755610,
      .bound 6 67027260, .bound 7 268109040, .bound 8 1072436160, .reduction 274111, .bound 9 1107843, .bound 10 4442370,
      .bound 11 17778817, .bound 12 71118480, .bound 13 284473920, .bound 14 1137895680, .reduction 290092, .bound 15 1172003,
      .bound 16 4698368, .bound 17 18803840, .bound 18 75220370, .bound 19 300881480]

private theorem option1_ct_run : run false 12288 0 12288
    [.round 49144 12287 12287, .round 196546 12287 61432, .round 785950 12287 257978, .round 3142169 12281 1043894,
      .round 12569513 12287 4186097, .round 50271650 12287 16755610, .round 201081780 12288 67027260,
      .round 804327120 12288 268109040, .reduced 12288 1072436160 274111 833732 12276 274090, .round 3334527 12286 1107843,
      .round 13336447 12286 4442111, .round 53339663 12286 17778687, .round 213355440 12288 71118480,
      .round 853421760 12288 284473920, .reduced 12288 1137895680 290092 881911 12283 289996, .round 3526365 12287 1171455,
      .round 14105472 12287 4698111, .round 56416530 12287 18803840, .round 225661110 12288 75220370,
      .round 902644440 12288 300881480] = some option1_ct := by decide +kernel

/-- src/notes.txt:392-414. -/
def option1_gs : List Line :=
    [.bound 0 12288, .bound 1 86005, .bound 2 528211, .bound 3 3180259, .bound 4 19090580, .bound 5 114543480,
      .bound 6 687260880, .reduction 180074, .bound 7 1091745, .bound 8 6561254, .bound 9 39373381, .bound 10 236240286,
      .bound 11 1417441716, .reduction 358341, .bound 12 2161806, .bound 13 12980153, .bound 14 77886443, .bound 15 467318658,
      .reduction 126377, .bound 16 769856, .bound 17 4629897, .bound 18 27785624, .bound 19 166713744]

private theorem option1_gs_run : run true 12288 0 12288
    [.round 86005 12287 24575, .round 528211 12287 172010, .round 3180259 12287 1056422, .round 19090580 12287 6360518,
      .round 114543480 12288 38181160, .round 687260880 12288 229086960,
      .reduced 12288 1374521760 180074 1091745 12287 360148, .round 6561254 12287 2183167, .round 39373381 12287 13122508,
      .round 236240286 12288 78746762, .round 1417441716 12288 472480572,
      .reduced 12288 2834883432 358341 2161806 12287 716682, .round 12980153 12286 4323327, .round 77886443 12287 25960306,
      .round 467318658 12288 155772886, .reduced 12288 934637316 126377 769856 12285 252586, .round 4629897 12287 1539712,
      .round 27785624 12287 9259794, .round 166713744 12288 55571248, .round 1000282464 12288 333427488] = some option1_gs := by decide +kernel

/-- src/notes.txt:422-442. -/
def option2_ct : List Line :=
    [.bound 0 12288, .bound 1 42997, .bound 2 119738, .bound 3 311299, .bound 4 790447, .bound 5 1987966, .bound 6 4980673,
      .bound 7 12462562, .bound 8 31164924, .bound 9 77918453, .bound 10 194802277, .bound 11 487011837, .bound 12 1217535737,
      .reduction 309535, .bound 13 785616, .bound 14 1975626, .bound 15 4949887, .bound 16 12385411, .bound 17 30971056,
      .bound 18 77433783, .bound 19 193590602]

private theorem option2_ct_run : run false 6144 0 12288
    [.round 30709 6143 12286, .round 76741 6143 42997, .round 191561 6137 119661, .round 479148 6143 311294,
      .round 1197519 6143 790446, .round 2992707 6141 1987924, .round 7481889 6143 4980672, .round 18702362 6143 12462079,
      .round 46753529 6144 31164923, .round 116883824 6144 77918453, .round 292209560 6144 194802277,
      .round 730523900 6144 487011837, .reduced 6144 1217535737 309535 476081 6143 309247, .round 1190010 6142 785407,
      .round 2974261 6142 1975295, .round 7435524 6143 4949887, .round 18585645 6143 12384255, .round 46462727 6144 30971055,
      .round 116156819 6144 77433783, .round 290392046 6144 193590601] = some option2_ct := by decide +kernel

/-- src/notes.txt:447-468. -/
def option2_gs : List Line :=
    [.bound 0 12288, .bound 1 49138, .bound 2 159595, .bound 3 490509, .bound 4 1483533, .bound 5 4460701, .bound 6 13391734,
      .bound 7 40181345, .bound 8 120550178, .bound 9 361656677, .bound 10 1084976174, .reduction 277172, .bound 11 843357,
      .bound 12 2541250, .bound 13 7632968, .bound 14 22907241, .bound 15 68727866, .bound 16 206189741, .bound 17 618575366,
      .bound 18 1855732241, .reduction 465345, .bound 19 1407302]

private theorem option2_gs_run : run true 6144 0 12288
    [.round 49138 6143 24574, .round 159595 6143 98276, .round 490509 6138 319145, .round 1483533 6143 980991,
      .round 4460701 6143 2967065, .round 13391734 6143 8921086, .round 40181345 6144 26783467,
      .round 120550178 6144 80362689, .round 361656677 6144 241100355, .round 1084976174 6144 723313353,
      .reduced 6144 2169952347 277172 843357 6141 554324, .round 2541250 6142 1686527, .round 7632968 6142 5082111,
      .round 22907241 6143 15265790, .round 68727866 6144 45814481, .round 206189741 6144 137455731,
      .round 618575366 6144 412379481, .round 1855732241 6144 1237150731, .reduced 6144 3711464481 465345 1407302 6141 930473,
      .round 4232521 6143 2813950] = some option2_gs := by decide +kernel

/-- src/notes.txt:497-519. -/
def option1_product_ct : List Line :=
    [.bound 0 36864, .bound 1 159730, .bound 2 651128, .bound 3 2616234, .bound 4 10474535, .bound 5 41904677,
      .bound 6 167618708, .bound 7 670474832, .reduction 175976, .bound 8 715694, .bound 9 2873755, .bound 10 11504664,
      .bound 11 46025136, .bound 12 184100544, .bound 13 736402176, .reduction 192071, .bound 14 780082, .bound 15 3131047,
      .bound 16 12533167, .bound 17 50140118, .bound 18 200560472, .bound 19 802241888, .reduction 208145]

private theorem option1_product_ct_run : run false 12288 0 36864
    [.round 122866 12287 36863, .round 491398 12287 159730, .round 1965106 12287 651128, .round 7858301 12285 2615978,
      .round 31430142 12287 10473471, .round 125714031 12288 41904677, .round 502856124 12288 167618708,
      .reduced 12288 670474832 175976 539718 12287 175976, .round 2158061 12285 715434, .round 8630909 12286 2873343,
      .round 34520472 12287 11504664, .round 138075408 12288 46025136, .round 552301632 12288 184100544,
      .reduced 12288 736402176 192071 588011 12279 192056, .round 2350965 12283 779878, .round 9402120 12285 3130709,
      .round 37606951 12287 12533167, .round 150420354 12288 50140118, .round 601681416 12288 200560472,
      .reduced 12288 802241888 208145 636251 12283 208076] = some option1_product_ct := by decide +kernel

/-- src/notes.txt:524-547. -/
def option1_product_gs : List Line :=
    [.bound 0 36864, .bound 1 233449, .bound 2 1412731, .bound 3 8485651, .bound 4 50917324, .bound 5 305503944,
      .bound 6 1833023664, .reduction 459801, .bound 7 2770487, .bound 8 16631116, .bound 9 99786712, .bound 10 598720272,
      .reduction 158457, .bound 11 962325, .bound 12 5784359, .bound 13 34710771, .bound 14 208264626, .bound 15 1249587756,
      .reduction 317361, .bound 16 1915826, .bound 17 11504438, .bound 18 69028362, .bound 19 414170172, .reduction 113401]

private theorem option1_product_gs_run : run true 12288 0 36864
    [.round 233449 12287 73727, .round 1412731 12287 466898, .round 8485651 12287 2825462, .round 50917324 12287 16969727,
      .round 305503944 12288 101834648, .round 1833023664 12288 611007888,
      .reduced 12288 3666047328 459801 2770487 12286 919551, .round 16631116 12287 5540974, .round 99786712 12287 33262232,
      .round 598720272 12288 199573424, .reduced 12288 1197440544 158457 962325 12285 316757, .round 5784359 12287 1924650,
      .round 34710771 12287 11567103, .round 208264626 12288 69421542, .round 1249587756 12288 416529252,
      .reduced 12288 2499175512 317361 1915826 12287 634722, .round 11504438 12286 3831652, .round 69028362 12287 23007231,
      .round 414170172 12288 138056724, .reduced 12288 828340344 113401 692055 12285 226645] = some option1_product_gs := by decide +kernel

/-- src/notes.txt:562-582. -/
def option2_product_ct : List Line :=
    [.bound 0 21499, .bound 1 65996, .bound 2 177113, .bound 3 454751, .bound 4 1148904, .bound 5 2884192, .bound 6 7221144,
      .bound 7 18063074, .bound 8 45164706, .bound 9 112917908, .bound 10 282300913, .bound 11 705758427,
      .bound 12 1764402212, .reduction 443048, .bound 13 1119550, .bound 14 2810134, .bound 15 7036512, .bound 16 17600603,
      .bound 17 44009354, .bound 18 110029528, .bound 19 275079963]

private theorem option2_product_ct_run : run false 6144 0 21499
    [.round 44497 6142 21499, .round 111117 6139 65945, .round 277638 6142 177113, .round 694153 6143 454654,
      .round 1735288 6143 1148903, .round 4336952 6143 2883582, .round 10841930 6143 7221144, .round 27101632 6143 18063074,
      .round 67753202 6144 45164705, .round 169383005 6144 112917907, .round 423457514 6144 282300913,
      .round 1058643785 6144 705758427, .reduced 6144 1764402211 443048 676502 6141 443047, .round 1690584 6141 1119550,
      .round 4226378 6143 2809854, .round 10564091 6143 7036512, .round 26408751 6143 17600510, .round 66020174 6144 44009353,
      .round 165050435 6144 110029527, .round 412626089 6144 275079963] = some option2_product_ct := by decide +kernel

/-- src/notes.txt:587-608. -/
def option2_product_gs : List Line :=
    [.bound 0 21499, .bound 1 76741, .bound 2 242116, .bound 3 737933, .bound 4 2224937, .bound 5 6684719, .bound 6 20063032,
      .bound 7 60195239, .bound 8 180591860, .bound 9 541781723, .bound 10 1625351312, .reduction 409100, .bound 11 1239146,
      .bound 12 3728795, .bound 13 11195616, .bound 14 33592994, .bound 15 100785125, .bound 16 302361518,
      .bound 17 907090697, .reduction 233743, .bound 18 713003, .bound 19 2150044]

private theorem option2_product_gs_run : run true 6144 0 21499
    [.round 76741 6143 42997, .round 242116 6143 153481, .round 737933 6141 484009, .round 2224937 6142 1475583,
      .round 6684719 6143 4449873, .round 20063032 6143 13369342, .round 60195239 6144 40126063,
      .round 180591860 6144 120390477, .round 541781723 6144 361183719, .round 1625351312 6144 1083563445,
      .reduced 6144 3250702623 409100 1239146 6142 818175, .round 3728795 6143 2478078, .round 11195616 6143 7456767,
      .round 33592994 6143 22390783, .round 100785125 6144 67185987, .round 302361518 6144 201570249,
      .round 907090697 6144 604723035, .reduced 6144 1814181393 233743 713003 6140 467455, .round 2150044 6143 1425406,
      .round 6459846 6142 4299775] = some option2_product_gs := by decide +kernel

/-- Each bound of src/notes.txt:366-387 is the best possible one from the one before, and the program prints this sequence. -/
theorem C79_option1_ct : BestLines (fun b => ctSet b (fun w => 0 ≤ w ∧ w ≤ 12288)) 20 0 12288 option1_ct ∧
    ct_iteration false 12288 0 12288 = .ok option1_ct :=
  ⟨run_sound (gs := false) (low := 0) (by decide) (by decide) (by decide) (by decide) option1_ct_run,
    iteration_run (gs := false) (low := 0) (by decide) (by decide) (by decide) (by decide) rfl option1_ct_run⟩

/-- Each bound of src/notes.txt:392-414 is the best possible one from the one before, and the program prints this sequence. -/
theorem C79_option1_gs : BestLines (fun b => gsSet b (fun w => 0 ≤ w ∧ w ≤ 12288)) 20 0 12288 option1_gs ∧
    gs_iteration false 12288 0 12288 = .ok option1_gs :=
  ⟨run_sound (gs := true) (low := 0) (by decide) (by decide) (by decide) (by decide) option1_gs_run,
    iteration_run (gs := true) (low := 0) (by decide) (by decide) (by decide) (by decide) rfl option1_gs_run⟩

/-- Each bound of src/notes.txt:422-442 is the best possible one from the one before, and the program prints this sequence. -/
theorem C79_option2_ct : BestLines (fun b => ctSet b (fun w => -6144 ≤ w ∧ w ≤ 6144)) 20 0 12288 option2_ct ∧
    ct_iteration false 12288 (-6144) 6144 = .ok option2_ct :=
  ⟨run_sound (gs := false) (low := -6144) (by decide) (by decide) (by decide) (by decide) option2_ct_run,
    iteration_run (gs := false) (low := -6144) (by decide) (by decide) (by decide) (by decide) rfl option2_ct_run⟩

/-- Each bound of src/notes.txt:447-468 is the best possible one from the one before, and the program prints this sequence. -/
theorem C79_option2_gs : BestLines (fun b => gsSet b (fun w => -6144 ≤ w ∧ w ≤ 6144)) 20 0 12288 option2_gs ∧
    gs_iteration false 12288 (-6144) 6144 = .ok option2_gs :=
  ⟨run_sound (gs := true) (low := -6144) (by decide) (by decide) (by decide) (by decide) option2_gs_run,
    iteration_run (gs := true) (low := -6144) (by decide) (by decide) (by decide) (by decide) rfl option2_gs_run⟩

/-- Each bound of src/notes.txt:497-519 is the best possible one from the one before, and the program prints this sequence. -/
theorem C79_option1_product_ct : BestLines (fun b => ctSet b (fun w => 0 ≤ w ∧ w ≤ 12288)) 20 0 36864 option1_product_ct ∧
    ct_iteration false 36864 0 12288 = .ok option1_product_ct :=
  ⟨run_sound (gs := false) (low := 0) (by decide) (by decide) (by decide) (by decide) option1_product_ct_run,
    iteration_run (gs := false) (low := 0) (by decide) (by decide) (by decide) (by decide) rfl option1_product_ct_run⟩

/-- Each bound of src/notes.txt:524-547 is the best possible one from the one before, and the program prints this sequence. -/
theorem C79_option1_product_gs : BestLines (fun b => gsSet b (fun w => 0 ≤ w ∧ w ≤ 12288)) 20 0 36864 option1_product_gs ∧
    gs_iteration false 36864 0 12288 = .ok option1_product_gs :=
  ⟨run_sound (gs := true) (low := 0) (by decide) (by decide) (by decide) (by decide) option1_product_gs_run,
    iteration_run (gs := true) (low := 0) (by decide) (by decide) (by decide) (by decide) rfl option1_product_gs_run⟩

/-- Each bound of src/notes.txt:562-582 is the best possible one from the one before, and the program prints this sequence. -/
theorem C79_option2_product_ct : BestLines (fun b => ctSet b (fun w => -6144 ≤ w ∧ w ≤ 6144)) 20 0 21499 option2_product_ct ∧
    ct_iteration false 21499 (-6144) 6144 = .ok option2_product_ct :=
  ⟨run_sound (gs := false) (low := -6144) (by decide) (by decide) (by decide) (by decide) option2_product_ct_run,
    iteration_run (gs := false) (low := -6144) (by decide) (by decide) (by decide) (by decide) rfl option2_product_ct_run⟩

/-- Each bound of src/notes.txt:587-608 is the best possible one from the one before, and the program prints this sequence. -/
theorem C79_option2_product_gs : BestLines (fun b => gsSet b (fun w => -6144 ≤ w ∧ w ≤ 6144)) 20 0 21499 option2_product_gs ∧
    gs_iteration false 21499 (-6144) 6144 = .ok option2_product_gs :=
  ⟨run_sound (gs := true) (low := -6144) (by decide) (by decide) (by decide) (by decide) option2_product_gs_run,
    iteration_run (gs := true) (low := -6144) (by decide) (by decide) (by decide) (by decide) rfl option2_product_gs_run⟩

private theorem opt1_greatest : IsGreatest (absProdSet 0 12288 0 12288) 36864 := by
  obtain ⟨h, h1, -⟩ := C79_product_positive
  refine ⟨⟨12288, 12288, by decide, by decide, by decide⟩, ?_⟩
  rintro v ⟨w, x, hw, hx, rfl⟩
  have := h w x hw hx
  rw [(C79_library _).2] at this
  rw [abs_le]; omega

private theorem opt2_greatest : IsGreatest (absProdSet (-6144) 6144 (-6144) 6144) 21499 := by
  obtain ⟨h, -, h1⟩ := C79_product_centred
  refine ⟨⟨6143, -6143, by decide, by decide, by decide⟩, ?_⟩
  rintro v ⟨w, x, hw, hx, rfl⟩
  have := h w x hw hx
  rw [(C79_library _).2] at this
  rw [abs_le]; omega

/-- What the program test_red_bounds prints for the two options is what src/notes.txt:364-609 shows. -/
theorem C79_printed (bound : Nat → Array Int) (hbound : ∀ i, (bound i).size = 12) :
    ∃ o, TestRedBounds.main false bound = .ok o ∧ o.ct1 = option1_ct ∧ o.gs1 = option1_gs ∧ o.ct2 = option2_ct ∧
      o.gs2 = option2_gs ∧ (o.opt1.min.r = -36864 ∧ o.opt1.max.r = 12285) ∧ o.opt1ct = option1_product_ct ∧
      o.opt1gs = option1_product_gs ∧ (o.opt2.min.r = -9216 ∧ o.opt2.max.r = 21499) ∧ o.opt2ct = option2_product_ct ∧
      o.opt2gs = option2_product_gs := by
  obtain ⟨o, e, h⟩ := C66_output bound hbound
  obtain ⟨⟨p1, p2⟩, r1, g1, c1, d1⟩ := h.opt1
  obtain ⟨⟨p3, p4⟩, r2, g2, c2, d2⟩ := h.opt2
  obtain rfl := g1.unique opt1_greatest
  obtain rfl := g2.unique opt2_greatest
  have a1 := C79_product_positive.1
  have a2 := C79_product_centred.1
  have lib := fun x => (C79_library x).2
  refine ⟨o, e, bestLines_unique h.ct1 C79_option1_ct.1, bestLines_unique h.gs1 C79_option1_gs.1,
    bestLines_unique h.ct2 C79_option2_ct.1, bestLines_unique h.gs2 C79_option2_gs.1,
    ⟨p1.unique ⟨⟨12288, 12288, by decide, by decide, by decide⟩, ?_⟩, p2.unique ⟨⟨1, 4095, by decide, by decide, by decide⟩, ?_⟩⟩,
    bestLines_unique c1 C79_option1_product_ct.1, bestLines_unique d1 C79_option1_product_gs.1,
    ⟨p3.unique ⟨⟨-6144, -6144, by decide, by decide, by decide⟩, ?_⟩, p4.unique ⟨⟨6143, -6143, by decide, by decide, by decide⟩, ?_⟩⟩,
    bestLines_unique c2 C79_option2_product_ct.1, bestLines_unique d2 C79_option2_product_gs.1⟩
  · rintro v ⟨w, x, hw, hx, rfl⟩; rw [← lib]; exact (a1 w x hw hx).1
  · rintro v ⟨w, x, hw, hx, rfl⟩; rw [← lib]; exact (a1 w x hw hx).2
  · rintro v ⟨w, x, hw, hx, rfl⟩; rw [← lib]; exact (a2 w x hw hx).1
  · rintro v ⟨w, x, hw, hx, rfl⟩; rw [← lib]; exact (a2 w x hw hx).2

/-- "There's no need for reduction. No overflow is possible in 10 rounds" (src/notes.txt:418), with the coefficients in
`[-6144, 6144]`: the bounds after ten rounds, from inputs bounded by 12288 and from reduced products (21499). -/
theorem C79_conclusion : option2_ct[10]? = some (.bound 10 194802277) ∧ option2_gs[10]? = some (.bound 10 1084976174) ∧
    option2_product_ct[10]? = some (.bound 10 282300913) ∧ option2_product_gs[10]? = some (.bound 10 1625351312) := by decide

end Props
