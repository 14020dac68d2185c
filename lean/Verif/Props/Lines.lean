import Verif.Spec.Lines
import Verif.Props.LeftAlone
import Verif.Props.KanaShift
import Verif.Props.ToRomaji2
import Verif.Props.BothWays
import Verif.Proofs.StdUnicode
/-! # C114: converting line by line -/

namespace WanaKana
open Unicode KNode

theorem joinLines_cons (l : Str) {ls : List Str} (h : ls ≠ []) :
    Spec.joinLines (l :: ls) = l ++ '\n' :: Spec.joinLines ls := by
  cases ls with
  | nil => exact absurd rfl h
  | cons a ls => rfl

/-- a function that works line by line -/
theorem joinLines_map {G : Str → Str} (hG : ∀ a b, G (a ++ '\n' :: b) = G a ++ '\n' :: G b) : ∀ {ls : List Str}, ls ≠ [] →
    G (Spec.joinLines ls) = Spec.joinLines (ls.map G)
  | [], h => absurd rfl h
  | [l], _ => rfl
  | l :: a :: ls, _ => by
    rw [joinLines_cons _ (List.cons_ne_nil _ _), hG, joinLines_map hG (List.cons_ne_nil _ _)]
    rfl

theorem append_newline_inj : ∀ {a a' b b' : Str}, '\n' ∉ a → '\n' ∉ a' → a ++ '\n' :: b = a' ++ '\n' :: b' →
    a = a' ∧ b = b'
  | [], [], _, _, _, _, h => ⟨rfl, (List.cons.inj h).2⟩
  | [], c :: a', _, _, _, h2, h => by
    rw [List.nil_append, List.cons_append] at h
    exact absurd (by rw [(List.cons.inj h).1]; simp) h2
  | c :: a, [], _, _, h1, _, h => by
    rw [List.nil_append, List.cons_append] at h
    exact absurd (by rw [← (List.cons.inj h).1]; simp) h1
  | c :: a, d :: a', _, _, h1, h2, h => by
    rw [List.cons_append, List.cons_append] at h
    obtain ⟨h3, h4⟩ := List.cons.inj h
    obtain ⟨h5, h6⟩ := append_newline_inj (fun h => h1 (by simp [h])) (fun h => h2 (by simp [h])) h4
    exact ⟨by rw [h3, h5], h6⟩

/-- lines can be read off a text -/
theorem joinLines_inj {ls : List Str} (f g : Str → Str) (hf : ∀ l ∈ ls, '\n' ∉ f l) (hg : ∀ l ∈ ls, '\n' ∉ g l) :
    Spec.joinLines (ls.map f) = Spec.joinLines (ls.map g) ↔ ∀ l ∈ ls, f l = g l := by
  constructor
  · intro h
    induction ls with
    | nil => simp
    | cons l ls ih =>
      cases ls with
      | nil =>
        have h : f l = g l := h
        simpa using h
      | cons a ls =>
        rw [List.map_cons, List.map_cons (f := g), joinLines_cons _ (by simp), joinLines_cons _ (by simp)] at h
        obtain ⟨h1, h2⟩ := append_newline_inj (hf l (by simp)) (hg l (by simp)) h
        intro x hx
        rcases List.mem_cons.1 hx with rfl | hx
        · exact h1
        · exact ih (fun l hl => hf l (by simp only [List.mem_cons] at hl ⊢; exact Or.inr hl))
            (fun l hl => hg l (by simp only [List.mem_cons] at hl ⊢; exact Or.inr hl)) h2 x hx
  · intro h
    rw [List.map_congr_left h]

theorem mem_joinLines {c : Char} : ∀ {ls : List Str}, c ∈ Spec.joinLines ls → c = '\n' ∨ ∃ l ∈ ls, c ∈ l
  | [], h => by cases h
  | [l], h => Or.inr ⟨l, by simp, h⟩
  | l :: a :: ls, h => by
    rw [joinLines_cons _ (List.cons_ne_nil _ _), List.mem_append, List.mem_cons] at h
    rcases h with h | h | h
    · exact Or.inr ⟨l, by simp, h⟩
    · exact Or.inl h
    · rcases mem_joinLines h with h | ⟨x, hx, h⟩
      · exact Or.inl h
      · exact Or.inr ⟨x, List.mem_cons_of_mem _ hx, h⟩

theorem joinLines_mem {c : Char} : ∀ {ls : List Str} {l : Str}, l ∈ ls → c ∈ l → c ∈ Spec.joinLines ls
  | [a], l, hl, h => by
    rw [List.mem_singleton] at hl
    subst hl
    exact h
  | a :: b :: ls, l, hl, h => by
    rw [joinLines_cons _ (List.cons_ne_nil _ _), List.mem_append, List.mem_cons]
    rcases List.mem_cons.1 hl with rfl | hl
    · exact Or.inl h
    · exact Or.inr (Or.inr (joinLines_mem hl h))

theorem joinLines_newline {a b : Str} {ls : List Str} : '\n' ∈ Spec.joinLines (a :: b :: ls) := by
  rw [joinLines_cons _ (List.cons_ne_nil _ _)]
  simp

/-! ## The parts of the conversions work line by line -/

theorem newline_inert (m : Mode) : Inert m '\n' := by
  constructor
  · decide +kernel
  · cases m <;> decide +kernel

theorem kana_lines (m : Mode) (a b : Str) : kana m (a ++ '\n' :: b) = kana m a ++ '\n' :: kana m b :=
  kana_append_inert a (newline_inert m) b

theorem k2hP_lines (std : Std) (dest : Bool) (a b : Str) :
    k2hP std dest none (a ++ '\n' :: b) = k2hP std dest none a ++ '\n' :: k2hP std dest none b := by
  rw [k2hP_append, k2hP_cons, if_neg (by decide), if_neg (by decide), if_neg (by decide +kernel)]

theorem lowerFrom_before {std : Std} (h : Spec.LineWise std) (x : Str) : ∀ (s a : Str),
    std.lowerFrom (x ++ '\n' :: a) s = std.lowerFrom a s
  | [], _ => rfl
  | c :: s, a => by
    rw [Std.lowerFrom, Std.lowerFrom, h.before, List.append_assoc, List.cons_append, lowerFrom_before h x s]

theorem lowerFrom_after {std : Std} (hstd : std.Lawful) (h : Spec.LineWise std) (y : Str) : ∀ (s a : Str),
    std.lowerFrom a (s ++ '\n' :: y) = std.lowerFrom a s ++ '\n' :: std.lowerFrom [] y
  | [], a => by
    rw [List.nil_append]
    show (if '\n' = 'Σ' then _ else std.lowerChar '\n') ++ std.lowerFrom (a ++ ['\n']) y = _
    rw [if_neg (by decide), hstd.lowerChar_ascii '\n' (by decide)]
    rw [lowerFrom_before h]
    rfl
  | c :: s, a => by
    rw [List.cons_append, Std.lowerFrom, Std.lowerFrom, h.after, lowerFrom_after hstd h y s, List.append_assoc]

theorem lower_lines {std : Std} (hstd : std.Lawful) (h : Spec.LineWise std) (a b : Str) :
    std.toLowercase (a ++ '\n' :: b) = std.toLowercase a ++ '\n' :: std.toLowercase b :=
  lowerFrom_after hstd h b a []

theorem lower_no_newline {std : Std} (h : Spec.LineWise std) {s : Str} (hs : '\n' ∉ s) : '\n' ∉ std.toLowercase s := by
  intro hm
  rcases lowerFrom_mem s hm with ⟨c, hc, hl⟩ | h | h
  · rw [h.lower c hl] at hc
    exact hs hc
  · revert h; decide
  · revert h; decide

theorem kana_no_newline (m : Mode) {s : Str} (hs : '\n' ∉ s) : '\n' ∉ kana m s := by
  intro hm
  rcases mem_kana_cases m s '\n' hm with h | ⟨_, x, _, n, out, _, _, hw, ho, h⟩
  · exact hs h
  · have := styled_ge hw ho x '\n' h
    revert this
    decide

theorem k2hP_no_newline {std : Std} (hstd : std.Lawful) (dest : Bool) : ∀ {s : Str} {prev : Option Char}, PrevOk prev →
    '\n' ∉ s → '\n' ∉ k2hP std dest prev s
  | [], prev, _, _ => by cases prev <;> simp [k2hP]
  | c :: s, prev, hp, hs => by
    have hc : '\n' ≠ c := fun h => hs (by rw [h]; simp)
    have hs : '\n' ∉ s := fun h => hs (by simp [h])
    rw [k2hP_cons]
    by_cases hk : keeps c = true
    · rw [if_pos hk, List.mem_cons, not_or]
      exact ⟨hc, k2hP_no_newline hstd dest hp hs⟩
    · rw [if_neg hk]
      by_cases hd : isDash c = true
      · rw [if_pos hd]
        cases prev with
        | none =>
          rw [List.mem_cons, not_or]
          exact ⟨hc, k2hP_no_newline hstd dest hp hs⟩
        | some p =>
          rw [List.mem_append, not_or]
          refine ⟨fun h => ?_, k2hP_no_newline hstd dest hp hs⟩
          have := longOut_mem hstd (hp p rfl).1 (hp p rfl).2 dest c _ h
          revert this
          decide
      · rw [if_neg hd]
        by_cases ha : is_char_katakana c = true
        · rw [if_pos ha, List.mem_cons, not_or]
          have hq := k2hChar_prevOk (by simpa using hk) (by simpa using hd) ha
          refine ⟨fun h => ?_, k2hP_no_newline hstd dest hq hs⟩
          have := (hq _ rfl).1
          rw [← h] at this
          revert this
          decide
        · rw [if_neg ha, List.mem_cons, not_or]
          exact ⟨hc, k2hP_no_newline hstd dest prevOk_none hs⟩

theorem h2k_no_newline {s : Str} (hs : '\n' ∉ s) : '\n' ∉ s.map h2kP := by
  intro h
  obtain ⟨c, hc, e⟩ := List.mem_map.1 h
  have := congrArg Char.toNat e
  rw [h2kP_toNat] at this
  split at this
  · have h2 : ('\n' : Char).toNat = 10 := by decide
    omega
  · exact hs (by rwa [← char_ext this])

/-! ## to_kana and to_romaji -/

/-- results of the lines -/
def LineResults (f : Str → Res Str) (ls rs : List Str) : Prop := rs.length = ls.length ∧
  ∀ (i : Nat) l r, ls[i]? = some l → rs[i]? = some r → f l = .ok r

theorem lineResults_eq {f : Str → Res Str} {g : Str → Str} (h : ∀ s, f s = .ok (g s)) {ls rs : List Str}
    (hr : LineResults f ls rs) : rs = ls.map g := by
  apply List.ext_getElem?
  intro i
  rw [List.getElem?_map]
  cases hl : ls[i]? with
  | none =>
    rw [List.getElem?_eq_none_iff] at hl
    rw [Option.map_none, List.getElem?_eq_none_iff, hr.1]
    exact hl
  | some l =>
    have : i < ls.length := by
      rw [← Nat.not_le, ← List.getElem?_eq_none_iff, hl]
      simp
    have hi : i < rs.length := by rw [hr.1]; exact this
    have := hr.2 i l rs[i] hl (List.getElem?_eq_getElem hi)
    rw [h] at this
    rw [List.getElem?_eq_getElem hi, Option.map_some, Except.ok.inj this]

/-- **C114** `to_kana` always works line by line -/
theorem C114_to_kana {std : Std} (hstd : std.Lawful) (o : Options) {ls rs : List Str} (h0 : ls ≠ [])
    (hr : LineResults (to_kana_with_opt std · o) ls rs) :
    to_kana_with_opt std (Spec.joinLines ls) o = .ok (Spec.joinLines rs) := by
  rw [lineResults_eq (fun s => to_kana_eq hstd s o) hr, to_kana_eq hstd, joinLines_map (kana_lines _) h0]

theorem romP_lines {std : Std} (hstd : std.Lawful) (up : Bool) (a b : Str) (ha : up = false ∨ Spec.swallowed [] a = 0) :
    rom std up (flagged std (a ++ '\n' :: b)) = rom std up (flagged std a) ++ '\n' :: rom std up (flagged std b) := by
  have h1 : to_romaji_with_opt std (a ++ '\n' :: b) { upcase_katakana := up } = .ok (rom std up (flagged std a) ++
      rom std up (flagged std ('\n' :: b))) := by
    refine C34_chunks hstd a ('\n' :: b) { upcase_katakana := up } ?_ ha (to_romaji_eq hstd _ _) (to_romaji_eq hstd _ _)
    intro c hc
    cases hc
    decide +kernel
  rw [to_romaji_eq hstd] at h1
  have h2 := Except.ok.inj h1
  rw [h2]
  congr 1
  have : flagged std ('\n' :: b) = ('\n', false) :: flagged std b := by
    unfold flagged
    rw [k2hP_cons, if_neg (by decide), if_neg (by decide), if_neg (by decide +kernel)]
    rfl
  rw [this, rom_miss (root_none hstd (by decide +kernel))]

/-- **C114** `to_romaji` works line by line, with upcase_katakana if no ー is swallowed -/
theorem C114_to_romaji {std : Std} (hstd : std.Lawful) (o : Options) {ls rs : List Str} (h0 : ls ≠ [])
    (hs : o.upcase_katakana = false ∨ ∀ l ∈ ls, Spec.swallowed [] l = 0)
    (hr : LineResults (to_romaji_with_opt std · o) ls rs) :
    to_romaji_with_opt std (Spec.joinLines ls) o = .ok (Spec.joinLines rs) := by
  rw [lineResults_eq (fun s => to_romaji_eq hstd s o) hr, to_romaji_eq hstd]
  congr 1
  clear hr
  induction ls with
  | nil => exact absurd rfl h0
  | cons l ls ih =>
    cases ls with
    | nil => rfl
    | cons a ls =>
      rw [joinLines_cons _ (List.cons_ne_nil _ _), romP_lines hstd _ _ _ (hs.imp id fun h => h l (by simp)),
        ih (List.cons_ne_nil _ _) (hs.imp id fun h x hx => h x (List.mem_cons_of_mem _ hx))]
      rfl

/-! ## to_katakana -/

theorem misses_of_same {m : Mode} (f : Char → Char) (hf : ∀ c, 0x2100 ≤ c.toNat → 0x2100 ≤ (f c).toNat)
    (hf' : ∀ c, 0x2100 ≤ (f c).toNat → 0x2100 ≤ c.toNat) (s : Str) (h : (kana m s).map f = s.map f) : kana m s = s := by
  induction s with
  | nil => exact kana_nil m
  | cons c s ih =>
    obtain ⟨n, k, hst⟩ := exists_stops (tree m) (c :: s)
    have hn : n.output = none := by
      cases ho : n.output with
      | none => rfl
      | some out =>
        exfalso
        have hk := stops_pos hst ho
        rw [kana_hit hst ho] at h
        have hge := styled_ge hst.walk ho ((c :: s).take k)
        have hne := (walk_output hst.walk ho).1
        have hlow := (alone_facts hst.walk).2.1 (by rw [ho]; rfl)
        cases hs : styled ((c :: s).take k) out with
        | nil =>
          unfold styled at hs
          split at hs
          · exact hne (List.map_eq_nil_iff.1 hs)
          · exact hne hs
        | cons d t =>
          rw [hs] at h hge
          have h1 := hf d (hge d List.mem_cons_self)
          have hd : f d = f c := (List.cons.inj h).1
          obtain ⟨j, rfl⟩ : ∃ j, k = j + 1 := ⟨k - 1, by omega⟩
          have := hlow (toAsciiLowercase c) (by simp [low])
          rw [toAsciiLowercase_toNat] at this
          rw [hd] at h1
          have h1 := hf' c h1
          split at this <;> omega
    rw [kana_miss hst hn] at h ⊢
    rw [List.map_cons, List.map_cons] at h
    rw [ih (List.cons.inj h).2]

theorem h2kP_ge' {c : Char} (h : 0x2100 ≤ (h2kP c).toNat) : 0x2100 ≤ c.toNat := by
  rw [h2kP_toNat] at h
  split at h <;> omega

/-- the conversion of the romaji of a text changes nothing but the script -/
theorem kata_same {std : Std} (hstd : std.Lawful) {m : Mode} {s : Str} :
    (kana m (std.toLowercase s)).map h2kP = s.map h2kP ↔ std.toLowercase s = s ∧ kana m s = s := by
  constructor
  · intro h
    have hl : std.toLowercase s = s := by
      apply toLowercase_id
      intro c hc
      have : Settled std (h2kP c) := by
        have hm : h2kP c ∈ s.map h2kP := List.mem_map.2 ⟨c, hc, rfl⟩
        rw [← h] at hm
        obtain ⟨d, hd, e⟩ := List.mem_map.1 hm
        rw [← e]
        exact h2kP_settled hstd (kana_settled hstd _ _ (fun d hd => lower_settled hstd hd) d hd)
      by_cases hh : 0x3041 ≤ c.toNat ∧ c.toNat ≤ 0x3096
      · exact settled_uncased hstd (by unfold Uncased; omega)
      · have he : h2kP c = c := by apply char_ext; rw [h2kP_toNat, if_neg hh]
        rwa [he] at this
    rw [hl] at h
    exact ⟨hl, misses_of_same h2kP (fun _ => h2kP_ge) (fun _ => h2kP_ge') s h⟩
  · rintro ⟨h1, h2⟩
    rw [h1, h2]

theorem reads_iff (s : Str) : Spec.ReadsRomaji s ↔ s = [] ∨ (is_romaji s || is_mixed s) = true := by
  unfold Spec.ReadsRomaji
  rw [Bool.or_eq_true, C01_is_romaji, C04_is_mixed]
  constructor
  · rintro (h | h)
    · by_cases hs : s = []
      · exact Or.inl hs
      · exact Or.inr (Or.inl ⟨hs, h⟩)
    · exact Or.inr (Or.inr h)
  · rintro (rfl | h | h)
    · exact Or.inl (by simp)
    · exact Or.inl h.2
    · exact Or.inr h

theorem kataP_reads {std : Std} {s : Str} {o : Options} (ho : o.pass_romaji = false) (h : Spec.ReadsRomaji s) :
    kataP std s o = (kana (modeOf o) (std.toLowercase s)).map h2kP := by
  unfold kataP
  rw [if_neg (by simp [ho])]
  rcases (reads_iff s).1 h with rfl | h
  · have : std.toLowercase [] = [] := rfl
    simp [this, kana_nil, is_romaji, is_mixed, is_mixed_pass_kanji]
  · rw [if_pos h]

theorem kataP_not_reads {std : Std} {s : Str} {o : Options} (ho : o.pass_romaji = false) (h : ¬ Spec.ReadsRomaji s) :
    kataP std s o = s.map h2kP := by
  unfold kataP
  rw [if_neg (by simp [ho]), if_neg fun h' => h ((reads_iff s).2 (Or.inr h'))]

/-- **C114** `to_katakana` works line by line exactly if every line in which it reads the romaji while it does not in the
whole text, or the other way round, has no romaji to convert -/
theorem C114_to_katakana {std : Std} (hstd : std.Lawful) (hlw : Spec.LineWise std) (o : Options)
    (ho : o.pass_romaji = false) {ls rs : List Str} (h0 : ls ≠ []) (hnl : ∀ l ∈ ls, '\n' ∉ l)
    (hr : LineResults (to_katakana_with_opt std · o) ls rs) :
    to_katakana_with_opt std (Spec.joinLines ls) o = .ok (Spec.joinLines rs) ↔
      ∀ l ∈ ls, (Spec.ReadsRomaji l ↔ Spec.ReadsRomaji (Spec.joinLines ls)) ∨
        Spec.Unmoved std (o.imemode && !o.use_obsolete_kana) l := by
  rw [lineResults_eq (fun s => to_katakana_eq hstd s o) hr, to_katakana_eq hstd]
  have e : ∀ a b : Str, (Except.ok a : Res Str) = .ok b ↔ a = b := fun a b =>
    ⟨fun h => Except.ok.inj h, fun h => by rw [h]⟩
  rw [e]
  have hno : ∀ l ∈ ls, '\n' ∉ kataP std l o := by
    intro l hl
    by_cases h : Spec.ReadsRomaji l
    · rw [kataP_reads ho h]
      exact h2k_no_newline (kana_no_newline _ (lower_no_newline hlw (hnl l hl)))
    · rw [kataP_not_reads ho h]
      exact h2k_no_newline (hnl l hl)
  have hsame : ∀ l, ((kana (modeOf o) (std.toLowercase l)).map h2kP = l.map h2kP ↔
      Spec.Unmoved std (o.imemode && !o.use_obsolete_kana) l) := by
    intro l
    rw [kata_same hstd, leftAlone_iff, ime_of_mode]
    rfl
  by_cases hw : Spec.ReadsRomaji (Spec.joinLines ls)
  · rw [kataP_reads ho hw, joinLines_map (G := fun s => (kana (modeOf o) (std.toLowercase s)).map h2kP) ?_ h0,
      joinLines_inj _ _ ?_ hno]
    · refine forall_congr' fun l => forall_congr' fun hl => ?_
      by_cases h : Spec.ReadsRomaji l
      · rw [kataP_reads ho h]
        simp [h, hw]
      · rw [kataP_not_reads ho h, hsame]
        simp [h, hw]
    · intro l hl
      exact h2k_no_newline (kana_no_newline _ (lower_no_newline hlw (hnl l hl)))
    · intro a b
      rw [lower_lines hstd hlw, kana_lines, List.map_append]
      rfl
  · rw [kataP_not_reads ho hw, joinLines_map (G := fun s => s.map h2kP) ?_ h0, joinLines_inj _ _ ?_ hno]
    · refine forall_congr' fun l => forall_congr' fun hl => ?_
      by_cases h : Spec.ReadsRomaji l
      · rw [kataP_reads ho h, eq_comm, hsame]
        simp [h, hw]
      · rw [kataP_not_reads ho h]
        simp [h, hw]
    · intro l hl
      exact h2k_no_newline (hnl l hl)
    · intro a b
      rw [List.map_append]
      rfl

/-- **C114** when a text of several lines has its romaji read -/
theorem C114_reads (a b : Str) (ls : List Str) :
    (Spec.ReadsRomaji (Spec.joinLines (a :: b :: ls)) ↔
      (∃ l ∈ a :: b :: ls, ∃ c ∈ l, Spec.Kana c) ∨ ∀ l ∈ a :: b :: ls, ∀ c ∈ l, Spec.Romaji c) ∧
    (Spec.Quoted (Spec.joinLines (a :: b :: ls)) ↔ Spec.Quoted a) := by
  have hn : Spec.Romaji '\n' := by decide +kernel
  have hk : ¬ Spec.Kana '\n' := by decide +kernel
  have hkana : (∃ c ∈ Spec.joinLines (a :: b :: ls), Spec.Kana c) ↔ ∃ l ∈ a :: b :: ls, ∃ c ∈ l, Spec.Kana c := by
    constructor
    · rintro ⟨c, hc, h⟩
      rcases mem_joinLines hc with rfl | ⟨l, hl, hcl⟩
      · exact absurd h hk
      · exact ⟨l, hl, c, hcl, h⟩
    · rintro ⟨l, hl, c, hc, h⟩
      exact ⟨c, joinLines_mem hl hc, h⟩
  constructor
  · unfold Spec.ReadsRomaji
    rw [hkana]
    constructor
    · rintro (h | h)
      · exact Or.inr fun l hl c hc => h c (joinLines_mem hl hc)
      · exact Or.inl h.1
    · rintro (h | h)
      · exact Or.inr ⟨h, '\n', joinLines_newline, hn⟩
      · refine Or.inl fun c hc => ?_
        rcases mem_joinLines hc with rfl | ⟨l, hl, hcl⟩
        · exact hn
        · exact h l hl c hcl
  · unfold Spec.Quoted
    rw [joinLines_cons _ (List.cons_ne_nil _ _)]
    cases a with
    | nil =>
      simp only [List.nil_append, List.head?_cons, List.head?_nil]
      constructor
      · rintro ⟨c, hc, h⟩
        cases hc
        exact absurd h (by decide +kernel)
      · rintro ⟨c, hc, h⟩
        cases hc
    | cons c a => simp

/-! ## to_hiragana -/

theorem hiraP_by_both {std : Std} (hstd : std.Lawful) {s : Str} {o : Options} (ho : o.pass_romaji = false)
    (h : Spec.ReadsRomaji s ∨ Spec.Quoted s ∧ Spec.NoKatakana s) :
    hiraP std s o = kana (modeOf o) (std.toLowercase (k2hP std false none s)) := by
  unfold hiraP
  rw [if_neg (by simp [ho])]
  by_cases hm : is_mixed s = true
  · rw [if_pos hm]
  · rw [if_neg hm]
    rcases h with h | ⟨h1, h2⟩
    · rcases (reads_iff s).1 h with rfl | h
      · have : std.toLowercase [] = [] := rfl
        simp [this, kana_nil, is_romaji, k2hP]
      · rw [Bool.or_eq_true, or_iff_left hm] at h
        rw [h, Bool.true_or, if_pos rfl, (k2hP_fixed hstd s).2 (few_romaji h)]
    · obtain ⟨c, hc, hp⟩ := h1
      rw [hc, Option.map_some, Option.getD_some, (is_char_english_punctuation_iff).2 hp, Bool.or_true, if_pos rfl,
        (k2hP_fixed hstd s).2 h2]

theorem hiraP_by_kana {std : Std} {s : Str} {o : Options} (ho : o.pass_romaji = false)
    (h : ¬ Spec.ReadsRomaji s) (hq : ¬ Spec.Quoted s) : hiraP std s o = k2hP std false none s := by
  unfold hiraP
  rw [reads_iff, not_or, Bool.or_eq_true, not_or] at h
  rw [if_neg (by simp [ho]), if_neg h.2.2, if_neg]
  rw [Bool.or_eq_true, not_or]
  refine ⟨h.2.1, ?_⟩
  cases hs : s.head? with
  | none => simp
  | some c =>
    intro hp
    exact hq ⟨c, hs, (is_char_english_punctuation_iff).1 (by simpa using hp)⟩

theorem hiraP_by_quote {std : Std} (hstd : std.Lawful) {s : Str} {o : Options} (ho : o.pass_romaji = false)
    (h : ¬ Spec.ReadsRomaji s) (hq : Spec.Quoted s) (hf : ¬ Spec.NoKatakana s) :
    hiraP std s o = kana (modeOf o) (std.toLowercase s) ∧
    hiraP std s o ≠ kana (modeOf o) (std.toLowercase (k2hP std false none s)) := by
  have e : hiraP std s o = kana (modeOf o) (std.toLowercase s) := by
    unfold hiraP
    rw [reads_iff, not_or, Bool.or_eq_true, not_or] at h
    rw [if_neg (by simp [ho]), if_neg h.2.2]
    obtain ⟨c, hc, hp⟩ := hq
    rw [hc, Option.map_some, Option.getD_some, (is_char_english_punctuation_iff).2 hp, Bool.or_true, if_pos rfl]
  refine ⟨e, fun h' => hf fun c hc hk => ?_⟩
  have hfew : FewKatakana (hiraP std s o) := by
    rw [h']
    exact few_lower hstd _ (few_k2h hstd s)
  apply hfew c _ hk
  rw [e]
  have hu := specKatakana_iff.1 hk
  apply mem_kana_of_ge _ (by omega)
  exact mem_lowerFrom hstd (by unfold Uncased; omega) s hc []

/-- **C114** `to_hiragana` works line by line exactly if: where the romaji of the whole text are read, every line that
is read by itself is read with its katakana, and the other lines have no romaji to convert; where they are not read,
the lines that are read by themselves have no romaji to convert.  The text has more than one line. -/
theorem C114_to_hiragana {std : Std} (hstd : std.Lawful) (hlw : Spec.LineWise std) (o : Options)
    (ho : o.pass_romaji = false) {a b : Str} {ls rs : List Str} (hnl : ∀ l ∈ a :: b :: ls, '\n' ∉ l)
    (hr : LineResults (to_hiragana_with_opt std · o) (a :: b :: ls) rs) :
    to_hiragana_with_opt std (Spec.joinLines (a :: b :: ls)) o = .ok (Spec.joinLines rs) ↔
      (Spec.ReadsRomaji (Spec.joinLines (a :: b :: ls)) ∨ Spec.Quoted a → ∀ l ∈ a :: b :: ls,
        Spec.ReadsRomaji l ∨ (Spec.Quoted l ∧ Spec.NoKatakana l) ∨
        (¬ Spec.Quoted l ∧ ∃ k, katakana_to_hiragana std l = .ok k ∧
          Spec.Unmoved std (o.imemode && !o.use_obsolete_kana) k)) ∧
      (¬ (Spec.ReadsRomaji (Spec.joinLines (a :: b :: ls)) ∨ Spec.Quoted a) → ∀ l ∈ a :: b :: ls,
        Spec.ReadsRomaji l ∨ Spec.Quoted l → Spec.Unmoved std (o.imemode && !o.use_obsolete_kana) l) := by
  have h0 : a :: b :: ls ≠ [] := List.cons_ne_nil _ _
  have hreads := C114_reads a b ls
  rw [lineResults_eq (fun s => to_hiragana_eq hstd s o) hr, to_hiragana_eq hstd]
  clear hr
  generalize hL : a :: b :: ls = L at *
  have e : ∀ a b : Str, (Except.ok a : Res Str) = .ok b ↔ a = b := fun a b =>
    ⟨fun h => Except.ok.inj h, fun h => by rw [h]⟩
  rw [e]
  have hno : ∀ l ∈ L, '\n' ∉ hiraP std l o := by
    intro l hl
    by_cases h1 : Spec.ReadsRomaji l ∨ Spec.Quoted l ∧ Spec.NoKatakana l
    · rw [hiraP_by_both hstd ho h1]
      exact kana_no_newline _ (lower_no_newline hlw (k2hP_no_newline hstd _ prevOk_none (hnl l hl)))
    · rw [not_or, not_and] at h1
      by_cases h2 : Spec.Quoted l
      · rw [(hiraP_by_quote hstd ho h1.1 h2 (h1.2 h2)).1]
        exact kana_no_newline _ (lower_no_newline hlw (hnl l hl))
      · rw [hiraP_by_kana ho h1.1 h2]
        exact k2hP_no_newline hstd _ prevOk_none (hnl l hl)
  have hsame : ∀ l, (kana (modeOf o) (std.toLowercase l) = l ↔
      Spec.Unmoved std (o.imemode && !o.use_obsolete_kana) l) := by
    intro l
    rw [kana_lower_fixed hstd, leftAlone_iff, ime_of_mode]
    rfl
  have hkk : ∀ l, katakana_to_hiragana std l = .ok (k2hP std false none l) := fun l => k2h_eq hstd l false
  by_cases hw : Spec.ReadsRomaji (Spec.joinLines L) ∨ Spec.Quoted a
  · have hw' : Spec.ReadsRomaji (Spec.joinLines L) ∨ Spec.Quoted (Spec.joinLines L) ∧ Spec.NoKatakana (Spec.joinLines L) := by
      by_cases h1 : Spec.ReadsRomaji (Spec.joinLines L)
      · exact Or.inl h1
      · refine Or.inr ⟨hreads.2.2 (hw.resolve_left h1), fun c hc hk => ?_⟩
        exfalso
        refine h1 (Or.inr ⟨⟨c, hc, katakana_is_kana hk⟩, '\n', ?_, by decide +kernel⟩)
        rw [← hL]
        exact joinLines_newline
    rw [hiraP_by_both hstd ho hw', joinLines_map (G := fun s => kana (modeOf o) (std.toLowercase (k2hP std false none s))) ?_ h0,
      joinLines_inj _ _ ?_ hno]
    · constructor
      · intro h
        refine ⟨fun _ l hl => ?_, fun h' => absurd hw h'⟩
        have h := h l hl
        by_cases h1 : Spec.ReadsRomaji l
        · exact Or.inl h1
        · by_cases h2 : Spec.Quoted l
          · by_cases h3 : Spec.NoKatakana l
            · exact Or.inr (Or.inl ⟨h2, h3⟩)
            · exact absurd h.symm (hiraP_by_quote hstd ho h1 h2 h3).2
          · rw [hiraP_by_kana ho h1 h2, hsame] at h
            exact Or.inr (Or.inr ⟨h2, _, hkk l, h⟩)
      · intro h l hl
        rcases h.1 hw l hl with h1 | h1 | ⟨h1, k, hk, hu⟩
        · rw [hiraP_by_both hstd ho (Or.inl h1)]
        · rw [hiraP_by_both hstd ho (Or.inr h1)]
        · rw [hkk] at hk
          cases hk
          by_cases h2 : Spec.ReadsRomaji l
          · rw [hiraP_by_both hstd ho (Or.inl h2)]
          · rw [hiraP_by_kana ho h2 h1, hsame]
            exact hu
    · intro l hl
      exact kana_no_newline _ (lower_no_newline hlw (k2hP_no_newline hstd _ prevOk_none (hnl l hl)))
    · intro a b
      rw [k2hP_lines, lower_lines hstd hlw, kana_lines]
  · have hw1 : ¬ Spec.ReadsRomaji (Spec.joinLines L) ∧ ¬ Spec.Quoted (Spec.joinLines L) := by
      rw [hreads.2]
      exact not_or.1 hw
    have hnokana : ∀ l ∈ L, ∀ c ∈ l, ¬ Spec.Kana c := fun l hl c hc hk => by
      refine hw1.1 (Or.inr ⟨⟨c, joinLines_mem hl hc, hk⟩, '\n', ?_, by decide +kernel⟩)
      rw [← hL]
      exact joinLines_newline
    have hid : ∀ l ∈ L, k2hP std false none l = l := fun l hl => k2hP_no_kana hstd (hnokana l hl)
    have hfew : ∀ l ∈ L, Spec.NoKatakana l := fun l hl c hc hk => absurd (katakana_is_kana hk) (hnokana l hl c hc)
    rw [hiraP_by_kana ho hw1.1 hw1.2, joinLines_map (G := fun s => k2hP std false none s) (k2hP_lines std false) h0,
      joinLines_inj _ _ ?_ hno]
    · constructor
      · intro h
        refine ⟨fun h' => absurd h' hw, fun _ l hl h1 => ?_⟩
        have h := h l hl
        rw [hiraP_by_both hstd ho (h1.imp id fun h2 => ⟨h2, hfew l hl⟩), hid l hl, eq_comm, hsame] at h
        exact h
      · intro h l hl
        by_cases h1 : Spec.ReadsRomaji l ∨ Spec.Quoted l
        · rw [hiraP_by_both hstd ho (h1.imp id fun h2 => ⟨h2, hfew l hl⟩), hid l hl, eq_comm, hsame]
          exact h.2 hw l hl h1
        · rw [not_or] at h1
          rw [hiraP_by_kana ho h1.1 h1.2]
    · intro l hl
      exact k2hP_no_newline hstd _ prevOk_none (hnl l hl)

/-- **C114** with pass_romaji both always work line by line -/
theorem C114_pass {std : Std} (hstd : std.Lawful) (o : Options) (ho : o.pass_romaji = true) {ls rs rs' : List Str}
    (h0 : ls ≠ []) (hr : LineResults (to_hiragana_with_opt std · o) ls rs)
    (hr' : LineResults (to_katakana_with_opt std · o) ls rs') :
    to_hiragana_with_opt std (Spec.joinLines ls) o = .ok (Spec.joinLines rs) ∧
    to_katakana_with_opt std (Spec.joinLines ls) o = .ok (Spec.joinLines rs') := by
  rw [lineResults_eq (fun s => to_hiragana_eq hstd s o) hr, lineResults_eq (fun s => to_katakana_eq hstd s o) hr',
    to_hiragana_eq hstd, to_katakana_eq hstd]
  have h1 : ∀ s, hiraP std s o = k2hP std false none s := fun s => by unfold hiraP; rw [if_pos ho]
  have h2 : ∀ s, kataP std s o = s.map h2kP := fun s => by unfold kataP; rw [if_pos ho]
  constructor
  · rw [h1, joinLines_map (k2hP_lines std false) h0]
    congr 2
    exact List.map_congr_left fun l _ => (h1 l).symm
  · rw [h2, joinLines_map (G := fun s => s.map h2kP) (fun a b => by rw [List.map_append]; rfl) h0]
    congr 2
    exact List.map_congr_left fun l _ => (h2 l).symm

/-! ## The standard library of Rust lowercases line by line -/

theorem ignorableThenCased_newline (y : Str) : ∀ b : Str, ignorableThenCased (b ++ '\n' :: y) = ignorableThenCased b
  | [] => by
    unfold ignorableThenCased
    have h1 : uniIn ('\n' : Char).toNat ignorableRanges = false := by decide +kernel
    have h2 : uniIn ('\n' : Char).toNat casedRanges = false := by decide +kernel
    rw [List.nil_append, List.dropWhile_cons, h1]
    simp only [Bool.false_eq_true, if_false, h2]
    rfl
  | c :: b => by
    have ih := ignorableThenCased_newline y b
    unfold ignorableThenCased at ih ⊢
    rw [List.cons_append, List.dropWhile_cons, List.dropWhile_cons]
    by_cases h : uniIn c.toNat ignorableRanges = true
    · rw [if_pos h, if_pos h]
      exact ih
    · rw [if_neg h, if_neg h]

/-- **C114** the standard library of Rust, with the character database, lowercases line by line -/
theorem C114_rust : Spec.LineWise rustStd := by
  refine ⟨fun x a b => ?_, fun a b y => ?_, fun c h => ?_⟩
  · show (ignorableThenCased (x ++ '\n' :: a).reverse && !ignorableThenCased b) = _
    rw [List.reverse_append, List.reverse_cons, List.append_assoc, List.singleton_append, ignorableThenCased_newline]
    rfl
  · show (ignorableThenCased a.reverse && !ignorableThenCased (b ++ '\n' :: y)) = _
    rw [ignorableThenCased_newline]
    rfl
  · have hall : (lowerTable.all fun x => !(x.2.map Char.ofNat).contains '\n') = true := by decide +kernel
    have h : '\n' ∈ uniMap lowerTable c := h
    rcases uniMap_cases lowerTable c with ⟨_, e⟩ | ⟨l, hl, _, e⟩
    · rw [e, List.mem_singleton] at h
      exact h.symm
    · rw [e] at h
      have := List.all_eq_true.1 hall _ hl
      rw [show ((l.map Char.ofNat).contains '\n') = true from List.contains_iff_mem.2 h] at this
      cases this

/-- line by line `ka` is converted, in the whole text it is not since it has no kana but kanji; a line of kana makes the
difference; `‘カ` is converted only in the whole text -/
example : to_katakana modernStd "ka".toList = .ok "カ".toList ∧
    to_katakana modernStd "漢字\nka".toList = .ok "漢字\nka".toList ∧
    to_katakana modernStd "漢字\nka\nの".toList = .ok "漢字\nカ\nノ".toList ∧
    to_katakana modernStd "漢字ka".toList = .ok "漢字ka".toList ∧
    to_katakana modernStd "漢字ka\nの".toList = .ok "漢字カ\nノ".toList ∧
    to_hiragana modernStd "‘カ".toList = .ok "「カ".toList ∧ to_hiragana modernStd "の\n‘カ".toList = .ok "の\n「か".toList := by
  decide +kernel
/-- the hypotheses are met -/
example : LineResults (to_katakana_with_opt modernStd · {}) ["漢字".toList, "ka".toList] ["漢字".toList, "カ".toList] := by
  refine ⟨rfl, fun i l r h1 h2 => ?_⟩
  match i with
  | 0 => cases h1; cases h2; decide +kernel
  | 1 => cases h1; cases h2; decide +kernel

end WanaKana
