import Verif.Props.RomajiUp
import Verif.Spec.RomajiUpAll
/-! # C136: exactly when a text can be converted to romaji piece by piece with katakana in capitals, for every text -/

namespace WanaKana
open RNode

theorem openEnd_concat (z : Spec.Marked) (p : Char × Bool) :
    Spec.openEnd (z ++ [p]) = z ++ [if p.1 = 'っ' then ('っ', true) else p] := by
  induction z with
  | nil => rfl
  | cons q z ih =>
    cases z with
    | nil => rfl
    | cons r z => rw [List.cons_append, List.cons_append, Spec.openEnd, ← List.cons_append, ih]; rfl

theorem openEnd_fst (z : Spec.Marked) : (Spec.openEnd z).map Prod.fst = z.map Prod.fst := by
  rcases List.eq_nil_or_concat z with rfl | ⟨z, p, rfl⟩
  · rfl
  · rw [List.concat_eq_append, openEnd_concat, List.map_append, List.map_append]
    congr 1
    by_cases h : p.1 = 'っ'
    · simp [h]
    · simp [h]

theorem openEnd_last (z : Spec.Marked) : (Spec.openEnd z).getLast? ≠ some ('っ', false) := by
  rcases List.eq_nil_or_concat z with rfl | ⟨z, p, rfl⟩
  · simp [Spec.openEnd]
  · rw [List.concat_eq_append, openEnd_concat, List.getLast?_concat]
    by_cases h : p.1 = 'っ'
    · simp [h]
    · rw [if_neg h]
      intro e
      cases e
      exact h rfl

theorem rom_openEnd {std : Std} (hstd : std.Lawful) (z : Spec.Marked) : rom std true (Spec.openEnd z) = rom std true z := by
  rcases List.eq_nil_or_concat z with rfl | ⟨z, ⟨c, f⟩, rfl⟩
  · rfl
  · rw [List.concat_eq_append, openEnd_concat]
    by_cases h : c = 'っ'
    · subst h
      rw [if_pos rfl, romU_cut_sokuon hstd, romU_cut_sokuon hstd, romU_sokuon_one hstd true _ [] (by simp),
        romU_sokuon_one hstd true _ [] (by simp)]
    · rw [if_neg h]

theorem flatten_last (l : List Spec.Marked) : (l.map Spec.openEnd).flatten.getLast? ≠ some ('っ', false) := by
  induction l with
  | nil => simp
  | cons z l ih =>
    rw [List.map_cons, List.flatten_cons, List.getLast?_append]
    cases h : (l.map Spec.openEnd).flatten.getLast? with
    | none => exact openEnd_last z
    | some p => rw [h] at ih; exact ih

theorem vuVowels_eq {std : Std} (hstd : std.Lawful) {x y : Char} (h : VuVowels std x y) : vuOf std = x ∧ vuOf2 std = y := by
  constructor
  · obtain ⟨n, hn, -, hl⟩ := vu_node hstd
    rw [← romH_walk_end (by simp) hn, h.alone] at hl
    exact hl.symm
  · obtain ⟨_, n, -, -, hn, -, hl⟩ := vu_node2 hstd
    rw [← romH_walk_end (by simp) hn, h.sokuon] at hl
    exact hl.symm

theorem rom_flatten_open {std : Std} (hstd : std.Lawful) {x y : Char} (hxy : VuVowels std x y) (zs : List Spec.Marked) :
    rom std true (zs.map Spec.openEnd).flatten = (zs.map (rom std true)).flatten ↔
      ∀ l p r, zs = l ++ p :: r → ¬ Spec.MergedKanaV x y (l.flatten.map Prod.fst) (p.map Prod.fst) := by
  have hm := romU_pieces hstd hxy (zs.map Spec.openEnd) []
  rw [List.flatten_nil, List.nil_append, rom_nil, List.nil_append, List.map_map] at hm
  have e1 : zs.map (rom std true ∘ Spec.openEnd) = zs.map (rom std true) := List.map_congr_left fun z _ => rom_openEnd hstd z
  rw [e1] at hm
  have hf : ∀ l : List Spec.Marked, (l.map Spec.openEnd).flatten.map Prod.fst = l.flatten.map Prod.fst := by
    intro l
    induction l with
    | nil => rfl
    | cons z l ih => simp only [List.map_cons, List.flatten_cons, List.map_append, ih, openEnd_fst]
  rw [hm]
  constructor
  · intro h l p r e hk
    refine h (l.map Spec.openEnd) (Spec.openEnd p) (r.map Spec.openEnd) (by rw [e]; simp) (Or.inl ?_)
    rw [List.nil_append, hf, openEnd_fst]
    exact hk
  · intro h m p r' e
    obtain ⟨l, q, rfl, rfl, e2⟩ := List.map_eq_append_iff.1 e
    obtain ⟨p', r, rfl, rfl, rfl⟩ := List.map_eq_cons_iff.1 e2
    rintro (hk | hs)
    · rw [List.nil_append, hf, openEnd_fst] at hk
      exact h l p' r rfl hk
    · exact flatten_last l (by simpa using hs.1)

/-- **C136** with katakana in capitals: the romaji of the pieces of a text are the romaji of the text exactly if no piece is
romanized together with the text before it and no syllable gets a different case from the scripts of the characters at the
same positions in the text (which are not its own if a ー was lost before) -/
theorem C136_pieces {std : Std} (hstd : std.Lawful) (o : Options) (ho : o.upcase_katakana = true) (x y : Char)
    (h1 : to_romaji_with_opt std "ゔ".toList o = .ok ['v', x])
    (h2 : to_romaji_with_opt std "っゔ".toList o = .ok ['v', 'v', y]) (ps rs : List Str)
    (h : ps.mapM (fun p => to_romaji_with_opt std p o) = .ok rs) :
    to_romaji_with_opt std ps.flatten o = .ok rs.flatten ↔
      (∀ l p r, ps = l ++ p :: r → ¬ Spec.MergedV x y l.flatten p) ∧
      ¬ Spec.Miscased (Spec.kanaTableV x y) (Spec.markedV x ps.flatten)
        (ps.flatMap fun p => Spec.openEnd (Spec.markedV x p)) := by
  have hxy := vuVowels_of_up hstd h1 h2
  obtain ⟨ex, ey⟩ := vuVowels_eq hstd hxy
  have hr : ∀ s, to_romaji_with_opt std s o = .ok (rom std true (flagged std s)) := by
    intro s
    rw [to_romaji_eq hstd, ho]
  rw [mapM_ok ps hr] at h
  cases h
  rw [hr, Except.ok.injEq]
  by_cases hp : ∀ l p r, ps = l ++ p :: r → ¬ Spec.Prolonged l.flatten p
  · have ek : ∀ l r, ps = l ++ r → k2hP std true none l.flatten = (l.map (k2hP std true none)).flatten := by
      rintro l r rfl
      have := k2hP_parts std l [] (fun m p r' e => by
        have := hp m p (r' ++ r) (by rw [e]; simp)
        simpa using this)
      rwa [List.flatten_nil, List.nil_append, show k2hP std true none [] = [] from rfl, List.nil_append] at this
    have ef : ∀ l : List Str, (l.map (flagged std)).flatten.map Prod.fst = (l.map (k2hP std true none)).flatten := by
      intro l
      induction l with
      | nil => rfl
      | cons a l ih => rw [List.map_cons, List.flatten_cons, List.map_append, ih, flagged_fst hstd]; rfl
    have hopen := rom_flatten_open hstd hxy (ps.map (flagged std))
    have hcrit : (∀ l p r, ps.map (flagged std) = l ++ p :: r →
          ¬ Spec.MergedKanaV x y (l.flatten.map Prod.fst) (p.map Prod.fst)) ↔
        ∀ l p r, ps = l ++ p :: r → ¬ Spec.MergedV x y l.flatten p := by
      have hc : ∀ l p r, ps = l ++ p :: r →
          (Spec.MergedKanaV x y ((l.map (flagged std)).flatten.map Prod.fst) ((flagged std p).map Prod.fst) ↔
            Spec.MergedV x y l.flatten p) := by
        intro l p r e
        rw [ef, ← ek l _ e, flagged_fst hstd, mergedKanaV_form hstd]
        unfold Spec.MergedV
        simp [hp l p r e]
      constructor
      · intro hm l p r e hmer
        exact hm (l.map (flagged std)) (flagged std p) (r.map (flagged std)) (by rw [e]; simp) ((hc l p r e).2 hmer)
      · intro hm m p r' e hmer
        obtain ⟨l, q, rfl, rfl, e2⟩ := List.map_eq_append_iff.1 e
        obtain ⟨p', r, rfl, rfl, rfl⟩ := List.map_eq_cons_iff.1 e2
        exact hm l p' r rfl ((hc l p' r rfl).1 hmer)
    rw [hcrit, List.map_map, List.map_map] at hopen
    have eM : (ps.flatMap fun p => Spec.openEnd (Spec.markedV x p)) = (ps.map (Spec.openEnd ∘ flagged std)).flatten := by
      rw [List.flatMap_def]
      congr 1
      apply List.map_congr_left
      intro p _
      rw [Function.comp, flagged_markedV hstd, ex]
    have hfst : (ps.flatMap fun p => Spec.openEnd (Spec.markedV x p)).map Prod.fst =
        (Spec.markedV x ps.flatten).map Prod.fst := by
      rw [eM, ← ex, ← flagged_markedV hstd, flagged_fst hstd, ek ps [] (by simp), ← ef]
      have : ∀ l : List Str, (l.map (Spec.openEnd ∘ flagged std)).flatten.map Prod.fst =
          (l.map (flagged std)).flatten.map Prod.fst := by
        intro l
        induction l with
        | nil => rfl
        | cons a l ih => simp only [List.map_cons, List.flatten_cons, List.map_append, ih, Function.comp, openEnd_fst]
      exact this ps
    have hwhole := rom_romanizedV hstd true _ (flagged_no_va hstd ps.flatten)
    rw [flagged_markedV hstd] at hwhole
    have hparts := rom_romanizedV hstd true (ps.flatMap fun p => Spec.openEnd (Spec.markedV x p)) (by
      intro u hu
      have hm : u.1 ∈ (flagged std ps.flatten).map Prod.fst := by
        rw [flagged_markedV hstd, ex, ← hfst]; exact List.mem_map_of_mem hu
      obtain ⟨u', hu', e⟩ := List.mem_map.1 hm
      rw [← e]
      exact flagged_no_va hstd _ u' hu')
    rw [ex, ey] at hwhole hparts
    have hcase := romanized_case (kanaTableV_nil _ _) hwhole hfst hparts
    rw [eM] at hcase ⊢
    rw [flagged_markedV hstd ps.flatten, ex, ← hcase]
    constructor
    · intro e
      by_cases hm : ∀ l p r, ps = l ++ p :: r → ¬ Spec.MergedV x y l.flatten p
      · exact ⟨hm, by rw [e]; exact (hopen.2 hm).symm⟩
      · exfalso
        apply hm
        rw [← hcrit]
        have el : ∀ l : List Str, (l.map fun p => (k2hP std true none p).map Spec.asciiLower).flatten =
            ((l.map (k2hP std true none)).flatten).map Spec.asciiLower := by
          intro l
          rw [List.map_flatten, List.map_map]
          rfl
        have hpc := romH_piecesV hstd hxy (ps.map fun p => (k2hP std true none p).map Spec.asciiLower) []
        rw [List.flatten_nil, List.nil_append, romH_nil, List.nil_append, List.map_map, el, ← ek ps [] (by simp)] at hpc
        have e := congrArg (List.map Spec.asciiLower) e
        rw [rom_lower hstd, ← ex, ← flagged_markedV hstd, flagged_fst hstd, List.map_flatten, List.map_map] at e
        have e2 : ps.map (List.map Spec.asciiLower ∘ fun s => rom std true (flagged std s)) =
            ps.map (romH std ∘ fun p => (k2hP std true none p).map Spec.asciiLower) := by
          apply List.map_congr_left
          intro p _
          simp only [Function.comp]
          rw [rom_lower hstd, flagged_fst hstd]
        rw [e2] at e
        have hall := hpc.1 e
        intro m p r' e hmer
        obtain ⟨l, q, rfl, rfl, e2⟩ := List.map_eq_append_iff.1 e
        obtain ⟨p', r, rfl, rfl, rfl⟩ := List.map_eq_cons_iff.1 e2
        refine hall (l.map fun p => (k2hP std true none p).map Spec.asciiLower) _
          (r.map fun p => (k2hP std true none p).map Spec.asciiLower) (by rw [List.map_append, List.map_cons]) ?_
        rw [List.nil_append, el, ← ef, ← flagged_fst hstd]
        exact mergedKanaV_lower hmer
    · rintro ⟨hm, e⟩
      rw [e]
      exact hopen.2 hm
  · constructor
    · intro e
      exfalso
      apply hp
      rintro l p r rfl hpr
      have hlt := marks_pieces_lt hstd l r p hpr
      have e := congrArg (List.countP (· == '-')) e
      rw [rom_dashes hstd, flagged_fst hstd] at e
      have hs : ∀ L : List Str, (L.map fun s => rom std true (flagged std s)).flatten.countP (· == '-') =
          (L.flatMap (k2hP std true none)).countP isMark := by
        intro L
        induction L with
        | nil => rfl
        | cons a L ih =>
          rw [List.map_cons, List.flatten_cons, List.countP_append, ih, rom_dashes hstd, flagged_fst hstd, List.flatMap_cons,
            List.countP_append]
      rw [hs] at e
      omega
    · intro hm
      exact absurd (fun l p r e hpr => hm.1 l p r e (Or.inl hpr)) hp

/-- **C136** for two texts -/
theorem C136_cut {std : Std} (hstd : std.Lawful) (o : Options) (ho : o.upcase_katakana = true) (x y : Char)
    (hx : to_romaji_with_opt std "ゔ".toList o = .ok ['v', x])
    (hy : to_romaji_with_opt std "っゔ".toList o = .ok ['v', 'v', y]) (a b ra rb : Str)
    (h1 : to_romaji_with_opt std a o = .ok ra) (h2 : to_romaji_with_opt std b o = .ok rb) :
    to_romaji_with_opt std (a ++ b) o = .ok (ra ++ rb) ↔
      ¬ Spec.MergedV x y a b ∧
      ¬ Spec.Miscased (Spec.kanaTableV x y) (Spec.markedV x (a ++ b))
        (Spec.openEnd (Spec.markedV x a) ++ Spec.openEnd (Spec.markedV x b)) := by
  have hnil : ∀ p : Str, ¬ Spec.MergedV x y [] p := by
    rintro p (⟨g, h, -⟩ | ⟨⟨x, y, h, -⟩, -⟩) <;> cases h
  have h := C136_pieces hstd o ho x y hx hy [a, b] [ra, rb] (by rw [List.mapM_cons, h1, ok_bind, List.mapM_cons, h2]; rfl)
  simp only [List.flatten_cons, List.flatten_nil, List.append_nil, List.flatMap_cons, List.flatMap_nil] at h
  rw [h]
  apply and_congr_left
  intro _
  constructor
  · intro h
    simpa using h [a] b [] rfl
  · intro h l p r e
    match l, e with
    | [], e => exact hnil p
    | [x], e => cases e; simpa using h
    | x :: y :: l, e => cases l <;> cases e

/-- **C136** for the tokens of a text -/
theorem C136_tokens {std : Std} (hstd : std.Lawful) (o : Options) (ho : o.upcase_katakana = true) (x y : Char)
    (hx : to_romaji_with_opt std "ゔ".toList o = .ok ['v', x])
    (hy : to_romaji_with_opt std "っゔ".toList o = .ok ['v', 'v', y]) (s : Str) (compact : Bool)
    (rs : List Str) (h : (tokenize_with_opt s compact).mapM (fun p => to_romaji_with_opt std p o) = .ok rs) :
    to_romaji_with_opt std s o = .ok rs.flatten ↔
      (∀ l p r, tokenize_with_opt s compact = l ++ p :: r → ¬ Spec.MergedV x y l.flatten p) ∧
      ¬ Spec.Miscased (Spec.kanaTableV x y) (Spec.markedV x s)
        ((tokenize_with_opt s compact).flatMap fun p => Spec.openEnd (Spec.markedV x p)) := by
  have := C136_pieces hstd o ho x y hx hy _ rs h
  rwa [(C45_concat s compact).1] at this

/-- ンー loses its mark, so that in ンーカさ every syllable has the case of the character before it: さ is written SA, though
さ alone is not; ンーカサ can be cut -/
example : Spec.swallowed [] "ンー".toList = 1 ∧
    to_romaji_with_opt modernStd "ンー".toList { upcase_katakana := true } = .ok "N".toList ∧
    to_romaji_with_opt modernStd "カさ".toList { upcase_katakana := true } = .ok "KAsa".toList ∧
    to_romaji_with_opt modernStd "ンーカさ".toList { upcase_katakana := true } = .ok "NKASA".toList ∧
    to_romaji_with_opt modernStd "カサ".toList { upcase_katakana := true } = .ok "KASA".toList ∧
    to_romaji_with_opt modernStd "ンーカサ".toList { upcase_katakana := true } = .ok "NKASA".toList := by
  decide +kernel

end WanaKana
