import Verif.Lemmas.SconeText
import Verif.Lemmas.FormatF
import Verif.Props.FlukaSurfaceText
import Verif.Props.SurfaceText
import Verif.Lemmas.Real
import Verif.Spec.Sample

/-!
# Written SCONE surfaces: C69
-/

namespace Csg

open Spec

section
variable {K : Type} [Field K] [LinearOrder K]

omit [Field K] [LinearOrder K] in
private theorem mapM_of_map {read : Str → Option K} {ws : List Str} {xs : List K} (h : ws.map read = xs.map some) : ws.mapM read = some xs := by
  induction ws generalizing xs with
  | nil => cases xs with
    | nil => rfl
    | cons => cases h
  | cons w ws ih => cases xs with
    | nil => cases h
    | cons x xs =>
      simp only [List.map_cons, List.cons.injEq] at h
      simp [h.1, ih h.2]

omit [Field K] [LinearOrder K] in
private theorem numbers_of {read : Str → Option K} {ds : List (Str × List Str)} {key : Str} {ws : List Str} {xs : List K} (hk : ds.lookup key = some ws)
    (h : ws.map read = xs.map some) : sconeNumbers read ds key = some xs := by
  simp [sconeNumbers, hk, mapM_of_map h]

private theorem sconeSide_eq {read : Str → Option K} {tanSq : K → K} {ds : List (Str × List Str)} {ty : Str} {keys : List Str} {f : List (List K) → Point K → Option Side}
    {ns : List (List K)} (p : Point K) (hty : ds.lookup c!"type" = some [ty]) (htab : (sconeTable tanSq).lookup ty = some (keys, f))
    (hk : keys.mapM (sconeNumbers read ds) = some ns) : sconeSide read tanSq ds p = f ns p := by
  simp [sconeSide, hty, htab, hk]

private theorem words_list {ws : List Str} (hne : ws ≠ []) (h : ∀ w ∈ ws, SconeWord w) (t : Str) :
    sconeWords (join c!" " ws ++ ')' :: t) = ws ++ c!")" :: sconeWords t := by
  induction ws with
  | nil => exact absurd rfl hne
  | cons w ws ih =>
    cases ws with
    | nil => exact sconeWords_mark (h w (by simp)) ')' rfl rfl
    | cons v ws =>
      show sconeWords ((w ++ c!" " ++ join c!" " (v :: ws)) ++ ')' :: t) = _
      rw [List.append_assoc, List.append_assoc]
      show sconeWords (w ++ ' ' :: (join c!" " (v :: ws) ++ ')' :: t)) = _
      rw [sconeWords_word (h w (by simp)), ih (by simp) fun x hx => h x (List.mem_cons_of_mem _ hx)]
      rfl

private theorem words_spaced {ws : List Str} (h : ∀ w ∈ ws, SconeWord w) (t : Str) :
    sconeWords (ws.flatMap (fun w => c!" " ++ w ++ c!" ") ++ ')' :: t) = ws ++ c!")" :: sconeWords t := by
  induction ws with
  | nil => exact sconeWords_cons_mark ')' rfl rfl
  | cons w ws ih =>
    rw [List.flatMap_cons, List.append_assoc, List.append_assoc, List.append_assoc]
    show sconeWords (' ' :: (w ++ ' ' :: (ws.flatMap (fun w => c!" " ++ w ++ c!" ") ++ ')' :: t))) = _
    rw [sconeWords_blank ' ' rfl, sconeWords_word (h w (by simp)), ih fun x hx => h x (List.mem_cons_of_mem _ hx)]
    rfl

private theorem kw_word (w : Str) (h : (w ≠ [] ∧ w.all fun c => !isSpace c && !isSconeMark c) := by decide) : SconeWord w := by
  refine ⟨h.1, fun c hc => ?_⟩
  have := List.all_eq_true.1 h.2 c hc
  simpa using this

private theorem header (n : Int) (t : Str) : sconeWords (intStr n ++ c!" { id " ++ intStr n ++ c!"; type " ++ t) =
    intStr n :: c!"{" :: c!"id" :: intStr n :: c!";" :: c!"type" :: sconeWords t := by
  have : intStr n ++ c!" { id " ++ intStr n ++ c!"; type " ++ t = intStr n ++ ' ' :: ('{' :: ' ' :: (c!"id" ++ ' ' :: (intStr n ++ ';' :: ' ' :: (c!"type" ++ ' ' :: t)))) := by simp
  rw [this, sconeWords_word (sconeWord_intStr n), sconeWords_cons_mark '{' rfl rfl, sconeWords_blank ' ' rfl, sconeWords_word (kw_word _),
    sconeWords_mark (sconeWord_intStr n) ';' rfl rfl, sconeWords_blank ' ' rfl, sconeWords_word (kw_word _)]

private theorem chunk_words {ws : List Str} (h : ∀ w ∈ ws, SconeWord w ∨ w = c!"(" ∨ w = c!")") : Chunk ws := by
  intro w hw
  rcases h w hw with h | rfl | rfl
  · exact h.chunk
  · decide
  · decide

private theorem tail_words : sconeWords c!"; } \n" = [c!";", c!"}"] := by decide

/-- A surface from the words after the header. `es` are the entries after `type`. -/
private theorem surface_of (n : Int) (t ty : Str) (es : List (List Str)) (ds : List (Str × List Str)) (hty : SconeWord ty)
    (hes : ∀ e ∈ es, ∀ w ∈ e, SconeWord w ∨ w = c!"(" ∨ w = c!")") (hw : sconeWords t = [ty, c!";"] ++ es.flatMap (fun e => e ++ [c!";"]) ++ [c!"}"])
    (hd : es.mapM sconeEntry = some ds) :
    sconeDictionary (intStr n ++ c!" { id " ++ intStr n ++ c!"; type " ++ t) = some (intStr n, (c!"id", [intStr n]) :: (c!"type", [ty]) :: ds) := by
  refine sconeDictionary_of_words (es := [c!"id", intStr n] :: [c!"type", ty] :: es) ?_ ?_ ?_
  · intro e he
    apply chunk_words
    rcases List.mem_cons.1 he with rfl | he
    · intro w hw
      simp only [List.mem_cons, List.not_mem_nil, or_false] at hw
      rcases hw with rfl | rfl
      · exact Or.inl (kw_word _)
      · exact Or.inl (sconeWord_intStr n)
    · rcases List.mem_cons.1 he with rfl | he
      · intro w hw
        simp only [List.mem_cons, List.not_mem_nil, or_false] at hw
        rcases hw with rfl | rfl
        · exact Or.inl (kw_word _)
        · exact Or.inl hty
      · exact hes e he
  · rw [header, hw]; simp
  · simp [sconeEntry, hd]

omit [Field K] in
private theorem sideOf_max_neg [Field K] {m v : K} (h : m < 0) : sideOf (max v m) = sideOf v := by
  unfold sideOf
  rcases lt_or_ge v 0 with hv | hv
  · simp [hv, h]
  · rw [max_eq_left (h.le.trans hv)]

variable [IsStrictOrderedRing K]

omit [LinearOrder K] [IsStrictOrderedRing K] in
private theorem literal_int (ds : Str) (n : Nat) (hne : ds ≠ []) (hd : Digits ds) (hv : digitsValue ds = n) : Literal ds (n : K) := by
  have := Literal.mk _ _ _ _ (Mantissa.whole (K := K) [] ds 1 .absent hne hd) .absent
  simpa [hv] using this

omit [LinearOrder K] [IsStrictOrderedRing K] in
private theorem literal_point (sg a b : Str) (s : Int) (n : Nat) (hs : SignText sg s) (hne : a ++ b ≠ []) (ha : Digits a) (hb : Digits b) (hv : digitsValue (a ++ b) = n) :
    Literal (sg ++ a ++ '.' :: b) (s * ((n : K) / 10 ^ b.length)) := by
  have := Literal.mk _ _ _ _ (Mantissa.point (K := K) sg a b s hs hne ha hb) .absent
  simpa [hv] using this

omit [LinearOrder K] [IsStrictOrderedRing K] in
private theorem lit_zero : Literal c!"0" (0 : K) := by
  simpa using literal_int (K := K) c!"0" 0 (by decide) (by unfold Digits; decide) (by decide +kernel)

omit [LinearOrder K] [IsStrictOrderedRing K] in
private theorem lit_zeros : Literal c!"0.0" (0 : K) := by
  simpa using literal_point (K := K) [] c!"0" c!"0" 1 0 .absent (by decide) (by unfold Digits; decide) (by unfold Digits; decide) (by decide +kernel)

private theorem lit_far : Literal c!"10000000000.0" (10 ^ 10 : K) := by
  have := literal_point (K := K) [] c!"10000000000" c!"0" 1 100000000000 .absent (by decide) (by unfold Digits; decide) (by unfold Digits; decide) (by decide +kernel)
  have e : ((1 : Int) : K) * (((100000000000 : Nat) : K) / 10 ^ c!"0".length) = 10 ^ 10 := by norm_num
  rwa [e] at this

private theorem lit_minus : Literal c!"-10000000000.0" (-10 ^ 10 : K) := by
  have := literal_point (K := K) c!"-" c!"10000000000" c!"0" (-1) 100000000000 .minus (by decide) (by unfold Digits; decide) (by unfold Digits; decide) (by decide +kernel)
  have e : ((-1 : Int) : K) * (((100000000000 : Nat) : K) / 10 ^ c!"0".length) = -10 ^ 10 := by norm_num
  rwa [e] at this

/-- The limits of a cone cut it off far away, or at the apex. -/
private theorem limits (w : K) : ∃ lo hi : K, SconeWord (sconeLimits w).1 ∧ SconeWord (sconeLimits w).2 ∧ Literal (sconeLimits w).1 lo ∧ Literal (sconeLimits w).2 hi ∧
    ∀ u r t : K, |u| < 10 ^ 10 → 0 ≤ r → sconeConeSide u r t lo hi = coneSide u r t w := by
  have far : SconeWord c!"10000000000.0" := kw_word _
  have minus : SconeWord c!"-10000000000.0" := kw_word _
  have zero : SconeWord c!"0" := kw_word _
  unfold sconeLimits coneSide
  rcases lt_trichotomy w 0 with hw | hw | hw
  · rw [if_pos hw]
    refine ⟨-10 ^ 10, 0, minus, zero, lit_minus, lit_zero, fun u r t hu hr => ?_⟩
    rw [abs_lt] at hu
    rw [if_neg hw.ne, sconeConeSide, max_comm]
    apply sideOf_cut
    · intro h
      have : u < 0 := neg_of_mul_pos_right h hw.le
      exact max_lt (by linarith) (by linarith)
    · intro h
      have : u = 0 := (mul_eq_zero.1 h).resolve_left hw.ne
      rw [this, sub_zero, sub_zero]
      exact max_eq_right (by norm_num)
    · intro h
      have : 0 < u := by
        by_contra hn
        exact absurd (mul_nonneg_of_nonpos_of_nonpos hw.le (not_lt.1 hn)) (not_le.2 h)
      exact lt_max_of_lt_right (by linarith)
    · intro h
      have : u = 0 := (mul_eq_zero.1 h).resolve_left hw.ne
      rw [this]; simpa using hr
  · subst hw
    rw [if_neg (lt_irrefl _), if_neg (lt_irrefl _)]
    refine ⟨-10 ^ 10, 10 ^ 10, minus, far, lit_minus, lit_far, fun u r t hu hr => ?_⟩
    rw [abs_lt] at hu
    rw [if_pos rfl, sconeConeSide, sideOf_max_neg]
    exact max_lt (by linarith) (by linarith)
  · rw [if_neg (not_lt.2 hw.le), if_pos hw]
    refine ⟨0, 10 ^ 10, zero, far, lit_zero, lit_far, fun u r t hu hr => ?_⟩
    rw [abs_lt] at hu
    rw [if_neg hw.ne', sconeConeSide, max_comm]
    apply sideOf_cut
    · intro h
      have : 0 < u := pos_of_mul_pos_right h hw.le
      exact max_lt (by linarith) (by linarith)
    · intro h
      have : u = 0 := (mul_eq_zero.1 h).resolve_left hw.ne'
      rw [this, sub_zero, zero_sub]
      exact max_eq_left (by norm_num)
    · intro h
      have : u < 0 := by
        by_contra hn
        exact absurd (mul_nonneg hw.le (not_lt.1 hn)) (not_le.2 h)
      exact lt_max_of_lt_left (by linarith)
    · intro h
      have : u = 0 := (mul_eq_zero.1 h).resolve_left hw.ne'
      rw [this]; simpa using hr

omit [IsStrictOrderedRing K] in
private theorem cone_eq {x y z t w : K} (io : NumIO K) (fixed : K → Str) (sqrt degAtan : K → K) (kw : Str) (ht : 0 ≤ t) :
    sconeCone io fixed sqrt degAtan kw [x, y, z, t, w] = .ok (c!"  " ++ kw ++ c!"; vertex ( " ++ fixed x ++ c!" " ++ fixed y ++ c!" " ++ fixed z ++ c!"  ); \n" ++
      c!"angle " ++ io.render (degAtan (sqrt t)) ++ c!"; hMin " ++ (sconeLimits w).1 ++ c!"; hMax " ++ (sconeLimits w).2 ++ c!"; } \n") :=
  if_neg (not_lt.2 ht)

omit [Field K] [LinearOrder K] [IsStrictOrderedRing K] in
private theorem cone_words {fx fy fz ang lo hi kw : Str} (n : Int) (hk : SconeWord kw) (hx : SconeWord fx) (hy : SconeWord fy) (hz : SconeWord fz) (ha : SconeWord ang) (hlo : SconeWord lo)
    (hhi : SconeWord hi) :
    sconeDictionary (intStr n ++ c!" { id " ++ intStr n ++ c!"; type " ++ (c!"  " ++ kw ++ c!"; vertex ( " ++ fx ++ c!" " ++ fy ++ c!" " ++ fz ++ c!"  ); \n" ++
      c!"angle " ++ ang ++ c!"; hMin " ++ lo ++ c!"; hMax " ++ hi ++ c!"; } \n")) = some (intStr n,
        [(c!"id", [intStr n]), (c!"type", [kw]), (c!"vertex", [fx, fy, fz]), (c!"angle", [ang]), (c!"hMin", [lo]), (c!"hMax", [hi])]) := by
  refine surface_of n _ kw [[c!"vertex", c!"(", fx, fy, fz, c!")"], [c!"angle", ang], [c!"hMin", lo], [c!"hMax", hi]] _ hk ?_ ?_ rfl
  · simp only [List.forall_mem_cons, List.not_mem_nil, false_imp_iff, implies_true, and_true]
    repeat' apply And.intro
    all_goals first | exact Or.inl ‹_› | exact Or.inl (kw_word _) | exact Or.inr (Or.inl trivial) | exact Or.inr (Or.inr trivial)
  · have eq : c!"  " ++ kw ++ c!"; vertex ( " ++ fx ++ c!" " ++ fy ++ c!" " ++ fz ++ c!"  ); \n" ++ c!"angle " ++ ang ++ c!"; hMin " ++ lo ++ c!"; hMax " ++ hi ++ c!"; } \n" =
        ' ' :: ' ' :: (kw ++ ';' :: ' ' :: (c!"vertex" ++ ' ' :: '(' :: ' ' :: (fx ++ ' ' :: (fy ++ ' ' :: (fz ++ ' ' :: ' ' :: ')' :: ';' :: ' ' :: '\n' ::
          (c!"angle" ++ ' ' :: (ang ++ ';' :: ' ' :: (c!"hMin" ++ ' ' :: (lo ++ ';' :: ' ' :: (c!"hMax" ++ ' ' :: (hi ++ c!"; } \n"))))))))))) := by simp
    rw [eq, sconeWords_blank ' ' rfl, sconeWords_blank ' ' rfl, sconeWords_mark hk ';' rfl rfl, sconeWords_blank ' ' rfl, sconeWords_word (kw_word _), sconeWords_cons_mark '(' rfl rfl,
      sconeWords_blank ' ' rfl, sconeWords_word hx, sconeWords_word hy, sconeWords_word hz, sconeWords_blank ' ' rfl, sconeWords_cons_mark ')' rfl rfl, sconeWords_cons_mark ';' rfl rfl,
      sconeWords_blank ' ' rfl, sconeWords_blank '\n' rfl, sconeWords_word (kw_word _), sconeWords_mark ha ';' rfl rfl, sconeWords_blank ' ' rfl, sconeWords_word (kw_word _),
      sconeWords_mark hlo ';' rfl rfl, sconeWords_blank ' ' rfl, sconeWords_word (kw_word _), sconeWords_mark hhi ';' rfl rfl]
    rfl


set_option linter.unusedSimpArgs false in
set_option maxHeartbeats 1000000 in
/-- **C69.** The SCONE dictionary of a surface has the number of the surface as name and as `id`, and SCONE reads it as the same half-spaces; for cones this holds for points closer than
10¹⁰ to the apex along the axis. The coefficients have to be printed such that SCONE reads them (for the apex of a cone, with six decimals), and the angle of a cone has to survive
the conversion. Missing are tori (`C69_torus`). -/
theorem C69_surface_partial (sqrt degAtan tanSq : K → K) (read : Str → Option K) (io : NumIO K) (fixed : K → Str) (s : Surface K) (hw : WellFormed s) (hq : IsQuadric s.type)
    (hlit : ∀ w x, Literal w x → read w = some x) (hr : ∀ x ∈ s.coeffs, Prints read io.render x)
    (hcone : IsCone s.type → (∀ x ∈ s.coeffs, Prints read fixed x) ∧
      ∀ t, s.coeffs[3]? = some t → 0 ≤ t ∧ Prints read io.render (degAtan (sqrt t)) ∧ tanSq (degAtan (sqrt t)) = t) :
    ∃ text ds, sconeSurface io fixed sqrt degAtan s = .ok text ∧ sconeDictionary text = some (intStr s.id, ds) ∧ ds.lookup c!"id" = some [intStr s.id] ∧
      ∀ p, (∀ u, coneOffset s.type s.coeffs p = some u → |u| < 10 ^ 10) → ∃ d, sconeSide read tanSq ds p = some d ∧ side sqrt s.type s.coeffs p = some d := by
  obtain ⟨ty, n, tr, cs, bc, bb⟩ := s
  have hsw : ∀ x ∈ cs, SconeWord (io.render x) := fun x hx => (hr x hx).sconeWord
  have hrd : ∀ x ∈ cs, read (io.render x) = some x := fun x hx => (hr x hx).reads
  have h0 := hlit _ _ lit_zero
  have h00 := hlit _ _ lit_zeros
  cases ty
  case planeGeneral =>
    match cs, hw with
    | [a, b, c, d], _ =>
      have sa := hsw a (by simp)
      have ra := hrd a (by simp)
      have sb := hsw b (by simp)
      have rb := hrd b (by simp)
      have sc := hsw c (by simp)
      have rc := hrd c (by simp)
      have sd := hsw d (by simp)
      have rd := hrd d (by simp)
      refine ⟨_, _, rfl, surface_of n (c!" plane; coeffs ( " ++ join c!" " ([a, b, c, d].map io.render) ++ c!"); } \n") c!"plane" [[c!"coeffs", c!"(", io.render a, io.render b, io.render c, io.render d, c!")"]] [(c!"coeffs", [io.render a, io.render b, io.render c, io.render d])] (kw_word _) ?_ ?_ rfl, rfl, fun p _ => ⟨_, ?_, rfl⟩⟩
      · simp only [List.forall_mem_cons, List.not_mem_nil, false_imp_iff, implies_true, and_true]
        repeat' apply And.intro
        all_goals first | exact Or.inl ‹_› | exact Or.inl (kw_word _) | exact Or.inr (Or.inl trivial) | exact Or.inr (Or.inr trivial)
      · have eq : c!" plane; coeffs ( " ++ join c!" " ([a, b, c, d].map io.render) ++ c!"); } \n" = ' ' :: (c!"plane" ++ ';' :: ' ' :: (c!"coeffs" ++ ' ' :: '(' :: ' ' :: (join c!" " ([a, b, c, d].map io.render) ++ ')' :: c!"; } \n"))) := by simp
        rw [eq]
        simp only [sconeWords_mark (kw_word c!"plane") ';' rfl rfl, sconeWords_word (kw_word c!"coeffs"), words_list (ws := [a, b, c, d].map io.render) (by simp) (by simp [sa, sb, sc, sd, kw_word]), sconeWords_blank ' ' rfl, sconeWords_cons_mark '(' rfl rfl, tail_words]
        rfl
      · refine (sconeSide_eq p rfl rfl (ns := [[a, b, c, d]]) ?_).trans rfl
        simp only [List.mapM_cons, List.mapM_nil]
        rw [numbers_of (ws := [io.render a, io.render b, io.render c, io.render d]) (xs := [a, b, c, d]) rfl (by simp [ra, rb, rc, rd, h0, h00])]
        rfl
  case planeX =>
    match cs, hw with
    | [a, b, c, d], _ =>
      have sd := hsw d (by simp)
      have rd := hrd d (by simp)
      refine ⟨_, _, rfl, surface_of n (c!" xPlane; x0 " ++ io.render d ++ c!"; } \n") c!"xPlane" [[c!"x0", io.render d]] [(c!"x0", [io.render d])] (kw_word _) ?_ ?_ rfl, rfl, fun p _ => ⟨_, ?_, rfl⟩⟩
      · simp only [List.forall_mem_cons, List.not_mem_nil, false_imp_iff, implies_true, and_true]
        repeat' apply And.intro
        all_goals first | exact Or.inl ‹_› | exact Or.inl (kw_word _) | exact Or.inr (Or.inl trivial) | exact Or.inr (Or.inr trivial)
      · have eq : c!" xPlane; x0 " ++ io.render d ++ c!"; } \n" = ' ' :: (c!"xPlane" ++ ';' :: ' ' :: (c!"x0" ++ ' ' :: (io.render d ++ c!"; } \n"))) := by simp
        rw [eq]
        simp only [sconeWords_mark (kw_word c!"xPlane") ';' rfl rfl, sconeWords_word (kw_word c!"x0"), sconeWords_mark sd ';' rfl rfl, sconeWords_blank ' ' rfl, sconeWords_cons_mark '(' rfl rfl, tail_words]
        rfl
      · refine (sconeSide_eq p rfl rfl (ns := [[d]]) ?_).trans rfl
        simp only [List.mapM_cons, List.mapM_nil]
        rw [numbers_of (ws := [io.render d]) (xs := [d]) rfl (by simp [rd, h0, h00])]
        rfl
  case planeY =>
    match cs, hw with
    | [a, b, c, d], _ =>
      have sd := hsw d (by simp)
      have rd := hrd d (by simp)
      refine ⟨_, _, rfl, surface_of n (c!" yPlane; y0 " ++ io.render d ++ c!"; } \n") c!"yPlane" [[c!"y0", io.render d]] [(c!"y0", [io.render d])] (kw_word _) ?_ ?_ rfl, rfl, fun p _ => ⟨_, ?_, rfl⟩⟩
      · simp only [List.forall_mem_cons, List.not_mem_nil, false_imp_iff, implies_true, and_true]
        repeat' apply And.intro
        all_goals first | exact Or.inl ‹_› | exact Or.inl (kw_word _) | exact Or.inr (Or.inl trivial) | exact Or.inr (Or.inr trivial)
      · have eq : c!" yPlane; y0 " ++ io.render d ++ c!"; } \n" = ' ' :: (c!"yPlane" ++ ';' :: ' ' :: (c!"y0" ++ ' ' :: (io.render d ++ c!"; } \n"))) := by simp
        rw [eq]
        simp only [sconeWords_mark (kw_word c!"yPlane") ';' rfl rfl, sconeWords_word (kw_word c!"y0"), sconeWords_mark sd ';' rfl rfl, sconeWords_blank ' ' rfl, sconeWords_cons_mark '(' rfl rfl, tail_words]
        rfl
      · refine (sconeSide_eq p rfl rfl (ns := [[d]]) ?_).trans rfl
        simp only [List.mapM_cons, List.mapM_nil]
        rw [numbers_of (ws := [io.render d]) (xs := [d]) rfl (by simp [rd, h0, h00])]
        rfl
  case planeZ =>
    match cs, hw with
    | [a, b, c, d], _ =>
      have sd := hsw d (by simp)
      have rd := hrd d (by simp)
      refine ⟨_, _, rfl, surface_of n (c!" zPlane; z0 " ++ io.render d ++ c!"; } \n") c!"zPlane" [[c!"z0", io.render d]] [(c!"z0", [io.render d])] (kw_word _) ?_ ?_ rfl, rfl, fun p _ => ⟨_, ?_, rfl⟩⟩
      · simp only [List.forall_mem_cons, List.not_mem_nil, false_imp_iff, implies_true, and_true]
        repeat' apply And.intro
        all_goals first | exact Or.inl ‹_› | exact Or.inl (kw_word _) | exact Or.inr (Or.inl trivial) | exact Or.inr (Or.inr trivial)
      · have eq : c!" zPlane; z0 " ++ io.render d ++ c!"; } \n" = ' ' :: (c!"zPlane" ++ ';' :: ' ' :: (c!"z0" ++ ' ' :: (io.render d ++ c!"; } \n"))) := by simp
        rw [eq]
        simp only [sconeWords_mark (kw_word c!"zPlane") ';' rfl rfl, sconeWords_word (kw_word c!"z0"), sconeWords_mark sd ';' rfl rfl, sconeWords_blank ' ' rfl, sconeWords_cons_mark '(' rfl rfl, tail_words]
        rfl
      · refine (sconeSide_eq p rfl rfl (ns := [[d]]) ?_).trans rfl
        simp only [List.mapM_cons, List.mapM_nil]
        rw [numbers_of (ws := [io.render d]) (xs := [d]) rfl (by simp [rd, h0, h00])]
        rfl
  case cylinderX =>
    match cs, hw with
    | [a, b, c], _ =>
      have sa := hsw a (by simp)
      have ra := hrd a (by simp)
      have sb := hsw b (by simp)
      have rb := hrd b (by simp)
      have sc := hsw c (by simp)
      have rc := hrd c (by simp)
      refine ⟨_, _, rfl, surface_of n (c!" xCylinder; radius " ++ io.render c ++ c!"; origin ( 0.0 " ++ io.render a ++ c!" " ++ io.render b ++ c!"); } \n") c!"xCylinder" [[c!"radius", io.render c], [c!"origin", c!"(", c!"0.0", io.render a, io.render b, c!")"]] [(c!"radius", [io.render c]), (c!"origin", [c!"0.0", io.render a, io.render b])] (kw_word _) ?_ ?_ rfl, rfl, fun p _ => ⟨_, ?_, rfl⟩⟩
      · simp only [List.forall_mem_cons, List.not_mem_nil, false_imp_iff, implies_true, and_true]
        repeat' apply And.intro
        all_goals first | exact Or.inl ‹_› | exact Or.inl (kw_word _) | exact Or.inr (Or.inl trivial) | exact Or.inr (Or.inr trivial)
      · have eq : c!" xCylinder; radius " ++ io.render c ++ c!"; origin ( 0.0 " ++ io.render a ++ c!" " ++ io.render b ++ c!"); } \n" = ' ' :: (c!"xCylinder" ++ ';' :: ' ' :: (c!"radius" ++ ' ' :: (io.render c ++ ';' :: ' ' :: (c!"origin" ++ ' ' :: '(' :: ' ' :: (c!"0.0" ++ ' ' :: (io.render a ++ ' ' :: (io.render b ++ ')' :: c!"; } \n"))))))) := by simp
        rw [eq]
        simp only [sconeWords_mark (kw_word c!"xCylinder") ';' rfl rfl, sconeWords_word (kw_word c!"radius"), sconeWords_word (kw_word c!"origin"), sconeWords_word (kw_word c!"0.0"), sconeWords_word (kw_word c!"0"), sconeWords_mark sc ';' rfl rfl, sconeWords_word sa, sconeWords_word sb, sconeWords_mark sb ')' rfl rfl, sconeWords_mark (kw_word c!"0") ')' rfl rfl, sconeWords_cons_mark ';' rfl rfl, sconeWords_blank ' ' rfl, sconeWords_cons_mark '(' rfl rfl, tail_words]
        rfl
      · refine (sconeSide_eq p rfl rfl (ns := [[0, a, b], [c]]) ?_).trans rfl
        simp only [List.mapM_cons, List.mapM_nil]
        rw [numbers_of (ws := [c!"0.0", io.render a, io.render b]) (xs := [0, a, b]) rfl (by simp [ra, rb, rc, h0, h00]), numbers_of (ws := [io.render c]) (xs := [c]) rfl (by simp [ra, rb, rc, h0, h00])]
        rfl
  case cylinderY =>
    match cs, hw with
    | [a, b, c], _ =>
      have sa := hsw a (by simp)
      have ra := hrd a (by simp)
      have sb := hsw b (by simp)
      have rb := hrd b (by simp)
      have sc := hsw c (by simp)
      have rc := hrd c (by simp)
      refine ⟨_, _, rfl, surface_of n (c!" yCylinder; radius " ++ io.render c ++ c!"; origin (" ++ io.render a ++ c!" 0 " ++ io.render b ++ c!"); } \n") c!"yCylinder" [[c!"radius", io.render c], [c!"origin", c!"(", io.render a, c!"0", io.render b, c!")"]] [(c!"radius", [io.render c]), (c!"origin", [io.render a, c!"0", io.render b])] (kw_word _) ?_ ?_ rfl, rfl, fun p _ => ⟨_, ?_, rfl⟩⟩
      · simp only [List.forall_mem_cons, List.not_mem_nil, false_imp_iff, implies_true, and_true]
        repeat' apply And.intro
        all_goals first | exact Or.inl ‹_› | exact Or.inl (kw_word _) | exact Or.inr (Or.inl trivial) | exact Or.inr (Or.inr trivial)
      · have eq : c!" yCylinder; radius " ++ io.render c ++ c!"; origin (" ++ io.render a ++ c!" 0 " ++ io.render b ++ c!"); } \n" = ' ' :: (c!"yCylinder" ++ ';' :: ' ' :: (c!"radius" ++ ' ' :: (io.render c ++ ';' :: ' ' :: (c!"origin" ++ ' ' :: '(' :: (io.render a ++ ' ' :: (c!"0" ++ ' ' :: (io.render b ++ ')' :: c!"; } \n"))))))) := by simp
        rw [eq]
        simp only [sconeWords_mark (kw_word c!"yCylinder") ';' rfl rfl, sconeWords_word (kw_word c!"radius"), sconeWords_word (kw_word c!"origin"), sconeWords_word (kw_word c!"0.0"), sconeWords_word (kw_word c!"0"), sconeWords_mark sc ';' rfl rfl, sconeWords_word sa, sconeWords_word sb, sconeWords_mark sb ')' rfl rfl, sconeWords_mark (kw_word c!"0") ')' rfl rfl, sconeWords_cons_mark ';' rfl rfl, sconeWords_blank ' ' rfl, sconeWords_cons_mark '(' rfl rfl, tail_words]
        rfl
      · refine (sconeSide_eq p rfl rfl (ns := [[a, 0, b], [c]]) ?_).trans rfl
        simp only [List.mapM_cons, List.mapM_nil]
        rw [numbers_of (ws := [io.render a, c!"0", io.render b]) (xs := [a, 0, b]) rfl (by simp [ra, rb, rc, h0, h00]), numbers_of (ws := [io.render c]) (xs := [c]) rfl (by simp [ra, rb, rc, h0, h00])]
        rfl
  case cylinderZ =>
    match cs, hw with
    | [a, b, c], _ =>
      have sa := hsw a (by simp)
      have ra := hrd a (by simp)
      have sb := hsw b (by simp)
      have rb := hrd b (by simp)
      have sc := hsw c (by simp)
      have rc := hrd c (by simp)
      refine ⟨_, _, rfl, surface_of n (c!" zCylinder; radius " ++ io.render c ++ c!"; origin (" ++ io.render a ++ c!" " ++ io.render b ++ c!" 0); } \n") c!"zCylinder" [[c!"radius", io.render c], [c!"origin", c!"(", io.render a, io.render b, c!"0", c!")"]] [(c!"radius", [io.render c]), (c!"origin", [io.render a, io.render b, c!"0"])] (kw_word _) ?_ ?_ rfl, rfl, fun p _ => ⟨_, ?_, rfl⟩⟩
      · simp only [List.forall_mem_cons, List.not_mem_nil, false_imp_iff, implies_true, and_true]
        repeat' apply And.intro
        all_goals first | exact Or.inl ‹_› | exact Or.inl (kw_word _) | exact Or.inr (Or.inl trivial) | exact Or.inr (Or.inr trivial)
      · have eq : c!" zCylinder; radius " ++ io.render c ++ c!"; origin (" ++ io.render a ++ c!" " ++ io.render b ++ c!" 0); } \n" = ' ' :: (c!"zCylinder" ++ ';' :: ' ' :: (c!"radius" ++ ' ' :: (io.render c ++ ';' :: ' ' :: (c!"origin" ++ ' ' :: '(' :: (io.render a ++ ' ' :: (io.render b ++ ' ' :: (c!"0" ++ ')' :: c!"; } \n"))))))) := by simp
        rw [eq]
        simp only [sconeWords_mark (kw_word c!"zCylinder") ';' rfl rfl, sconeWords_word (kw_word c!"radius"), sconeWords_word (kw_word c!"origin"), sconeWords_word (kw_word c!"0.0"), sconeWords_word (kw_word c!"0"), sconeWords_mark sc ';' rfl rfl, sconeWords_word sa, sconeWords_word sb, sconeWords_mark sb ')' rfl rfl, sconeWords_mark (kw_word c!"0") ')' rfl rfl, sconeWords_cons_mark ';' rfl rfl, sconeWords_blank ' ' rfl, sconeWords_cons_mark '(' rfl rfl, tail_words]
        rfl
      · refine (sconeSide_eq p rfl rfl (ns := [[a, b, 0], [c]]) ?_).trans rfl
        simp only [List.mapM_cons, List.mapM_nil]
        rw [numbers_of (ws := [io.render a, io.render b, c!"0"]) (xs := [a, b, 0]) rfl (by simp [ra, rb, rc, h0, h00]), numbers_of (ws := [io.render c]) (xs := [c]) rfl (by simp [ra, rb, rc, h0, h00])]
        rfl
  case sphereGeneral =>
    match cs, hw with
    | [a, b, c, d], _ =>
      have sa := hsw a (by simp)
      have ra := hrd a (by simp)
      have sb := hsw b (by simp)
      have rb := hrd b (by simp)
      have sc := hsw c (by simp)
      have rc := hrd c (by simp)
      have sd := hsw d (by simp)
      have rd := hrd d (by simp)
      refine ⟨_, _, rfl, surface_of n (c!" sphere; origin (" ++ io.render a ++ c!" " ++ io.render b ++ c!" " ++ io.render c ++ c!"); radius " ++ io.render d ++ c!"; } \n") c!"sphere" [[c!"origin", c!"(", io.render a, io.render b, io.render c, c!")"], [c!"radius", io.render d]] [(c!"origin", [io.render a, io.render b, io.render c]), (c!"radius", [io.render d])] (kw_word _) ?_ ?_ rfl, rfl, fun p _ => ⟨_, ?_, rfl⟩⟩
      · simp only [List.forall_mem_cons, List.not_mem_nil, false_imp_iff, implies_true, and_true]
        repeat' apply And.intro
        all_goals first | exact Or.inl ‹_› | exact Or.inl (kw_word _) | exact Or.inr (Or.inl trivial) | exact Or.inr (Or.inr trivial)
      · have eq : c!" sphere; origin (" ++ io.render a ++ c!" " ++ io.render b ++ c!" " ++ io.render c ++ c!"); radius " ++ io.render d ++ c!"; } \n" = ' ' :: (c!"sphere" ++ ';' :: ' ' :: (c!"origin" ++ ' ' :: '(' :: (io.render a ++ ' ' :: (io.render b ++ ' ' :: (io.render c ++ ')' :: ';' :: ' ' :: (c!"radius" ++ ' ' :: (io.render d ++ c!"; } \n"))))))) := by simp
        rw [eq]
        simp only [sconeWords_mark (kw_word c!"sphere") ';' rfl rfl, sconeWords_word (kw_word c!"origin"), sconeWords_word (kw_word c!"radius"), sconeWords_word sa, sconeWords_word sb, sconeWords_mark sc ')' rfl rfl, sconeWords_cons_mark ';' rfl rfl, sconeWords_mark sd ';' rfl rfl, sconeWords_blank ' ' rfl, sconeWords_cons_mark '(' rfl rfl, tail_words]
        rfl
      · refine (sconeSide_eq p rfl rfl (ns := [[a, b, c], [d]]) ?_).trans rfl
        simp only [List.mapM_cons, List.mapM_nil]
        rw [numbers_of (ws := [io.render a, io.render b, io.render c]) (xs := [a, b, c]) rfl (by simp [ra, rb, rc, rd, h0, h00]), numbers_of (ws := [io.render d]) (xs := [d]) rfl (by simp [ra, rb, rc, rd, h0, h00])]
        rfl
  case generalQuadratic =>
    match cs, hw with
    | [a, b, c, d, e, f, g, h, j, k], _ =>
      have sa := hsw a (by simp)
      have ra := hrd a (by simp)
      have sb := hsw b (by simp)
      have rb := hrd b (by simp)
      have sc := hsw c (by simp)
      have rc := hrd c (by simp)
      have sd := hsw d (by simp)
      have rd := hrd d (by simp)
      have se := hsw e (by simp)
      have re := hrd e (by simp)
      have sf := hsw f (by simp)
      have rf := hrd f (by simp)
      have sg := hsw g (by simp)
      have rg := hrd g (by simp)
      have sh := hsw h (by simp)
      have rh := hrd h (by simp)
      have sj := hsw j (by simp)
      have rj := hrd j (by simp)
      have sk := hsw k (by simp)
      have rk := hrd k (by simp)
      refine ⟨_, _, rfl, surface_of n (c!" quadric; coeffs ( " ++ [a, b, c, d, e, f, g, h, j, k].flatMap (fun x => c!" " ++ io.render x ++ c!" ") ++ c!"); } \n") c!"quadric" [[c!"coeffs", c!"(", io.render a, io.render b, io.render c, io.render d, io.render e, io.render f, io.render g, io.render h, io.render j, io.render k, c!")"]] [(c!"coeffs", [io.render a, io.render b, io.render c, io.render d, io.render e, io.render f, io.render g, io.render h, io.render j, io.render k])] (kw_word _) ?_ ?_ rfl, rfl, fun p _ => ⟨_, ?_, rfl⟩⟩
      · simp only [List.forall_mem_cons, List.not_mem_nil, false_imp_iff, implies_true, and_true]
        repeat' apply And.intro
        all_goals first | exact Or.inl ‹_› | exact Or.inl (kw_word _) | exact Or.inr (Or.inl trivial) | exact Or.inr (Or.inr trivial)
      · have eq : c!" quadric; coeffs ( " ++ [a, b, c, d, e, f, g, h, j, k].flatMap (fun x => c!" " ++ io.render x ++ c!" ") ++ c!"); } \n" = ' ' :: (c!"quadric" ++ ';' :: ' ' :: (c!"coeffs" ++ ' ' :: '(' :: ' ' :: (([a, b, c, d, e, f, g, h, j, k].map io.render).flatMap (fun w => c!" " ++ w ++ c!" ") ++ ')' :: c!"; } \n"))) := by simp
        rw [eq]
        simp only [sconeWords_mark (kw_word c!"quadric") ';' rfl rfl, sconeWords_word (kw_word c!"coeffs"), words_spaced (ws := [a, b, c, d, e, f, g, h, j, k].map io.render) (by simp [sa, sb, sc, sd, se, sf, sg, sh, sj, sk, kw_word]), sconeWords_blank ' ' rfl, sconeWords_cons_mark '(' rfl rfl, tail_words]
        rfl
      · refine (sconeSide_eq p rfl rfl (ns := [[a, b, c, d, e, f, g, h, j, k]]) ?_).trans rfl
        simp only [List.mapM_cons, List.mapM_nil]
        rw [numbers_of (ws := [io.render a, io.render b, io.render c, io.render d, io.render e, io.render f, io.render g, io.render h, io.render j, io.render k]) (xs := [a, b, c, d, e, f, g, h, j, k]) rfl (by simp [ra, rb, rc, rd, re, rf, rg, rh, rj, rk, h0, h00])]
        rfl
  case coneX =>
    match cs, hw with
    | [x, y, z, t, w], _ =>
      obtain ⟨hf, ht⟩ := hcone (Or.inl rfl)
      obtain ⟨ht, hang, htan⟩ := ht t rfl
      obtain ⟨lo, hi, slo, shi, llo, lhi, hlim⟩ := limits w
      have hx := hf x (by simp)
      have hy := hf y (by simp)
      have hz := hf z (by simp)
      refine ⟨_, _, ?_, cone_words n (kw_word c!"xCone") hx.sconeWord hy.sconeWord hz.sconeWord hang.sconeWord slo shi, rfl, fun p hp => ⟨coneSide (p.x - x) ((p.y - y) ^ 2 + (p.z - z) ^ 2) t w, ?_, ?_⟩⟩
      · show (do match ← (sconeCone io fixed sqrt degAtan c!"xCone" [x, y, z, t, w]).map some with
          | some t => .ok (intStr n ++ c!" { id " ++ intStr n ++ c!"; type " ++ t)
          | none => .ok c!"surface not supported\n" : Py Str) = _
        rw [cone_eq _ _ _ _ _ ht]
        rfl
      · refine (sconeSide_eq p rfl rfl (ns := [[x, y, z], [degAtan (sqrt t)], [lo], [hi]]) ?_).trans ?_
        · simp only [List.mapM_cons, List.mapM_nil]
          rw [numbers_of (ws := [fixed x, fixed y, fixed z]) (xs := [x, y, z]) rfl (by simp [hx.reads, hy.reads, hz.reads]),
            numbers_of (ws := [io.render (degAtan (sqrt t))]) (xs := [degAtan (sqrt t)]) rfl (by simp [hang.reads]),
            numbers_of (ws := [(sconeLimits w).1]) (xs := [lo]) rfl (by simp [hlit _ _ llo]), numbers_of (ws := [(sconeLimits w).2]) (xs := [hi]) rfl (by simp [hlit _ _ lhi])]
          rfl
        · have := hlim (p.x - x) ((p.y - y) ^ 2 + (p.z - z) ^ 2) (tanSq (degAtan (sqrt t))) (hp _ rfl) (by positivity)
          rw [htan] at this
          rw [← this, ← htan]
          simp only [htan]
      · by_cases h : w = 0 <;> simp [side, torusValue, value, sheet, coneSide, h]
  case coneY =>
    match cs, hw with
    | [x, y, z, t, w], _ =>
      obtain ⟨hf, ht⟩ := hcone (Or.inr (Or.inl rfl))
      obtain ⟨ht, hang, htan⟩ := ht t rfl
      obtain ⟨lo, hi, slo, shi, llo, lhi, hlim⟩ := limits w
      have hx := hf x (by simp)
      have hy := hf y (by simp)
      have hz := hf z (by simp)
      refine ⟨_, _, ?_, cone_words n (kw_word c!"yCone") hx.sconeWord hy.sconeWord hz.sconeWord hang.sconeWord slo shi, rfl, fun p hp => ⟨coneSide (p.y - y) ((p.x - x) ^ 2 + (p.z - z) ^ 2) t w, ?_, ?_⟩⟩
      · show (do match ← (sconeCone io fixed sqrt degAtan c!"yCone" [x, y, z, t, w]).map some with
          | some t => .ok (intStr n ++ c!" { id " ++ intStr n ++ c!"; type " ++ t)
          | none => .ok c!"surface not supported\n" : Py Str) = _
        rw [cone_eq _ _ _ _ _ ht]
        rfl
      · refine (sconeSide_eq p rfl rfl (ns := [[x, y, z], [degAtan (sqrt t)], [lo], [hi]]) ?_).trans ?_
        · simp only [List.mapM_cons, List.mapM_nil]
          rw [numbers_of (ws := [fixed x, fixed y, fixed z]) (xs := [x, y, z]) rfl (by simp [hx.reads, hy.reads, hz.reads]),
            numbers_of (ws := [io.render (degAtan (sqrt t))]) (xs := [degAtan (sqrt t)]) rfl (by simp [hang.reads]),
            numbers_of (ws := [(sconeLimits w).1]) (xs := [lo]) rfl (by simp [hlit _ _ llo]), numbers_of (ws := [(sconeLimits w).2]) (xs := [hi]) rfl (by simp [hlit _ _ lhi])]
          rfl
        · have := hlim (p.y - y) ((p.x - x) ^ 2 + (p.z - z) ^ 2) (tanSq (degAtan (sqrt t))) (hp _ rfl) (by positivity)
          rw [htan] at this
          rw [← this, ← htan]
          simp only [htan]
      · by_cases h : w = 0 <;> simp [side, torusValue, value, sheet, coneSide, h]
  case coneZ =>
    match cs, hw with
    | [x, y, z, t, w], _ =>
      obtain ⟨hf, ht⟩ := hcone (Or.inr (Or.inr rfl))
      obtain ⟨ht, hang, htan⟩ := ht t rfl
      obtain ⟨lo, hi, slo, shi, llo, lhi, hlim⟩ := limits w
      have hx := hf x (by simp)
      have hy := hf y (by simp)
      have hz := hf z (by simp)
      refine ⟨_, _, ?_, cone_words n (kw_word c!"zCone") hx.sconeWord hy.sconeWord hz.sconeWord hang.sconeWord slo shi, rfl, fun p hp => ⟨coneSide (p.z - z) ((p.x - x) ^ 2 + (p.y - y) ^ 2) t w, ?_, ?_⟩⟩
      · show (do match ← (sconeCone io fixed sqrt degAtan c!"zCone" [x, y, z, t, w]).map some with
          | some t => .ok (intStr n ++ c!" { id " ++ intStr n ++ c!"; type " ++ t)
          | none => .ok c!"surface not supported\n" : Py Str) = _
        rw [cone_eq _ _ _ _ _ ht]
        rfl
      · refine (sconeSide_eq p rfl rfl (ns := [[x, y, z], [degAtan (sqrt t)], [lo], [hi]]) ?_).trans ?_
        · simp only [List.mapM_cons, List.mapM_nil]
          rw [numbers_of (ws := [fixed x, fixed y, fixed z]) (xs := [x, y, z]) rfl (by simp [hx.reads, hy.reads, hz.reads]),
            numbers_of (ws := [io.render (degAtan (sqrt t))]) (xs := [degAtan (sqrt t)]) rfl (by simp [hang.reads]),
            numbers_of (ws := [(sconeLimits w).1]) (xs := [lo]) rfl (by simp [hlit _ _ llo]), numbers_of (ws := [(sconeLimits w).2]) (xs := [hi]) rfl (by simp [hlit _ _ lhi])]
          rfl
        · have := hlim (p.z - z) ((p.x - x) ^ 2 + (p.y - y) ^ 2) (tanSq (degAtan (sqrt t))) (hp _ rfl) (by positivity)
          rw [htan] at this
          rw [← this, ← htan]
          simp only [htan]
      · by_cases h : w = 0 <;> simp [side, torusValue, value, sheet, coneSide, h]
  all_goals exact absurd hq (by simp [IsQuadric])

/-- C69 does not hold for tori: the text is not a dictionary and has no number. -/
theorem C69_torus (sqrt degAtan : K → K) (io : NumIO K) (fixed : K → Str) (s : Surface K) (ht : IsTorus s.type) :
    sconeSurface io fixed sqrt degAtan s = .ok c!"surface not supported\n" ∧ sconeDictionary c!"surface not supported\n" = none := by
  refine ⟨?_, by decide⟩
  obtain ⟨ty, n, tr, cs, bc, bb⟩ := s
  rcases ht with h | h | h <;> simp only at h <;> subst h <;> rfl

end

/-- C69 is false without the bound on the distance: SCONE cuts off a cone at 10¹⁰. -/
theorem C69_refuted : ¬ ∀ (s : Surface ℚ) (text : Str) (ds : List (Str × List Str)) (n : Str), WellFormed s → IsQuadric s.type →
    sconeSurface sampleIO formatF id (45 * ·) s = .ok text → sconeDictionary text = some (n, ds) →
    ∀ p, sconeSide decimal (fun d => (d / 45) ^ 2) ds p = side id s.type s.coeffs p := by
  intro h
  have := h { (Surface.blank : Surface ℚ) with type := .coneX, id := 7, coeffs := [0, 0, 0, 1, 0] }
    c!"7 { id 7; type   xCone; vertex ( 0.000000 0.000000 0.000000  ); \nangle 45.0; hMin -10000000000.0; hMax 10000000000.0; } \n"
    [(c!"id", [c!"7"]), (c!"type", [c!"xCone"]), (c!"vertex", [c!"0.000000", c!"0.000000", c!"0.000000"]), (c!"angle", [c!"45.0"]), (c!"hMin", [c!"-10000000000.0"]),
      (c!"hMax", [c!"10000000000.0"])] c!"7" rfl trivial (by decide +kernel) (by decide +kernel) ⟨20000000000, 0, 0⟩
  exact absurd this (by decide +kernel)

/-- A one-sheet cone. -/
def sconeSampleCone : Surface ℚ := { (Surface.blank : Surface ℚ) with type := .coneY, id := 12, coeffs := [1, -2, 3, 1, -1] }

/-- The hypotheses of C69 are met, here with functions that are right for the squared tangent 1. -/
example : WellFormed sconeSampleCone ∧ IsQuadric sconeSampleCone.type ∧ IsCone sconeSampleCone.type ∧ (∀ w (x : ℚ), Literal w x → decimal w = some x) ∧
    (∀ x ∈ sconeSampleCone.coeffs, Prints decimal sampleIO.render x) ∧ (∀ x ∈ sconeSampleCone.coeffs, Prints decimal formatF x) ∧
    (∀ t, sconeSampleCone.coeffs[3]? = some t → 0 ≤ t ∧ Prints decimal sampleIO.render (45 * t) ∧ (45 * t / 45) ^ 2 = t) ∧
    sconeSurface sampleIO formatF id (45 * ·) sconeSampleCone =
      .ok c!"12 { id 12; type   yCone; vertex ( 1.000000 -2.000000 3.000000  ); \nangle 45.0; hMin -10000000000.0; hMax 0; } \n" := by
  refine ⟨rfl, trivial, Or.inr (Or.inl rfl), fun w x h => decimal_literal h, ?_, ?_, ?_, by decide +kernel⟩
  · intro x hx
    simp only [sconeSampleCone, List.mem_cons, List.not_mem_nil, or_false] at hx
    rcases hx with rfl | rfl | rfl | rfl | rfl
    · exact_mod_cast sample_prints 1 (by decide +kernel)
    · exact_mod_cast sample_prints (-2) (by decide +kernel)
    · exact_mod_cast sample_prints 3 (by decide +kernel)
    · exact_mod_cast sample_prints 1 (by decide +kernel)
    · exact_mod_cast sample_prints (-1) (by decide +kernel)
  · intro x hx
    simp only [sconeSampleCone, List.mem_cons, List.not_mem_nil, or_false] at hx
    rcases hx with rfl | rfl | rfl | rfl | rfl
    · exact_mod_cast fixed_prints 1
    · exact_mod_cast fixed_prints (-2)
    · exact_mod_cast fixed_prints 3
    · exact_mod_cast fixed_prints 1
    · exact_mod_cast fixed_prints (-1)
  · intro t ht
    have : t = 1 := by simpa [sconeSampleCone] using ht.symm
    subst this
    refine ⟨by norm_num, ?_, by norm_num⟩
    have := sample_prints 45 (by decide +kernel)
    simpa using this

end Csg
