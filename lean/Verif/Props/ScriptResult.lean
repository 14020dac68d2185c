import Verif.Spec.ScriptResult
import Verif.Props.KanaResult
import Verif.Props.Convert4
import Verif.Props.RoundTripScripts2
import Verif.Proofs.StdUnicode
/-! # C118: exactly which texts are results of `to_katakana` and `to_hiragana` -/

namespace WanaKana
open KNode

/-! ## kana that do not stem from a doubled syllable -/

theorem suffix_one {l c : Str} {y p : Char} (h : [p] <:+ l ++ y :: c) (hy : y ≠ p) : [p] <:+ c := by
  rw [← List.reverse_prefix] at h ⊢
  have h : [p] <+: c.reverse ++ y :: l.reverse := by simpa using h
  cases hc : c.reverse with
  | nil =>
    rw [hc] at h
    simp [List.cons_prefix_cons] at h
    exact absurd h.symm hy
  | cons d c' =>
    rw [hc] at h
    simp [List.cons_prefix_cons] at h ⊢
    exact h

theorem suffix_two {l c : Str} {y p z : Char} (h : [p, z] <:+ l ++ y :: c) (hy : y ≠ p) (hz : y ≠ z) : [p, z] <:+ c := by
  rw [← List.reverse_prefix] at h ⊢
  have h : [z, p] <+: c.reverse ++ y :: l.reverse := by simpa using h
  cases hc : c.reverse with
  | nil =>
    rw [hc] at h
    simp [List.cons_prefix_cons] at h
    exact absurd h.1.symm hz
  | cons d c' =>
    rw [hc] at h
    cases c' with
    | nil =>
      simp [List.cons_prefix_cons] at h
      exact absurd h.2.symm hy
    | cons e c' =>
      simp [List.cons_prefix_cons] at h ⊢
      exact h

theorem suffix_mono {p a b : Str} (h : p <:+ b) : p <:+ a ++ b := h.trans (List.suffix_append _ _)

theorem kana_low_ne {c : Char} (h : Spec.Kana c) : toAsciiLowercase c = c ∧ c ≠ 'n' ∧ c ≠ 'y' := by
  have hge := kana_ge h
  refine ⟨?_, ?_, ?_⟩
  · apply Char.ext; apply UInt32.toNat.inj
    show (toAsciiLowercase c).toNat = c.toNat
    rw [toAsciiLowercase_toNat, if_neg (by omega)]
  · rintro rfl; exact absurd hge (by decide)
  · rintro rfl; exact absurd hge (by decide)

/-- with every `n` before `y`, every kana is free -/
theorem free_of_ynext {a b : Str} {k : Char} (ha : AllLoc YNext (a ++ k :: b)) (hk : Spec.Kana k) :
    ¬ ['n'] <:+ a ∧ ¬ ['n', 'っ'] <:+ a ∧ ¬ ['n', 'ッ'] <:+ a := by
  have key : ∀ (x : Str) (d : Char) (y : Str), AllLoc YNext (x ++ 'n' :: d :: y) → Spec.Kana d → False := by
    intro x d y h hd
    obtain ⟨z, hz, hy⟩ := (allLoc_split h).1.n (by decide)
    have : d = z := by simpa using hz
    subst this
    rw [(kana_low_ne hd).1] at hy
    exact (kana_low_ne hd).2.2 hy
  refine ⟨?_, ?_, ?_⟩
  · rintro ⟨x, rfl⟩
    exact key x k b (by simpa using ha) hk
  · rintro ⟨x, rfl⟩
    exact key x 'っ' (k :: b) (by simpa using ha) (by decide)
  · rintro ⟨x, rfl⟩
    exact key x 'ッ' (k :: b) (by simpa using ha) (by decide)

theorem tsuY_shape {w : Str} (hw : w ∈ Spec.tsuY) : ∃ x y, w = [x, y] ∧ (x = 'っ' ∨ x = 'ッ') ∧ Spec.Kana x ∧ Spec.Kana y ∧
    y ≠ 'n' ∧ y ≠ 'っ' ∧ y ≠ 'ッ' := by
  simp only [Spec.tsuY, List.mem_cons, List.not_mem_nil, or_false] at hw
  rcases hw with rfl | rfl | rfl | rfl | rfl | rfl | rfl | rfl <;> exact ⟨_, _, rfl, by decide⟩

theorem free_split {a t : Str} {w : Str} (ha : AllLoc YNext a) (hw : w ∈ Spec.tsuY) :
    Spec.FreeKana (a ++ ('n' :: w ++ t)) ↔ (∃ k ∈ a, Spec.Kana k) ∨ Spec.FreeKana t := by
  obtain ⟨x, y, rfl, hx, hkx, hky, y1, y2, y3⟩ := tsuY_shape hw
  constructor
  · rintro ⟨A, k, B, e, hk, f1, f2, f3⟩
    rw [List.append_eq_append_iff] at e
    rcases e with ⟨c', rfl, e⟩ | ⟨c', rfl, e⟩
    · match c', e with
      | [], e =>
        have : 'n' = k := by simpa using (List.cons.inj e).1
        subst this
        exact absurd hk (by decide)
      | [n], e =>
        have h1 := (List.cons.inj e).1
        exact absurd (by rw [← h1]; exact List.suffix_append _ _) f1
      | [n, x'], e =>
        obtain ⟨h1, e⟩ := List.cons.inj e
        obtain ⟨h2, e⟩ := List.cons.inj e
        subst h1 h2
        rcases hx with rfl | rfl
        · exact absurd (List.suffix_append _ _) f2
        · exact absurd (List.suffix_append _ _) f3
      | n :: x' :: y' :: c'', e =>
        obtain ⟨h1, e⟩ := List.cons.inj e
        obtain ⟨h2, e⟩ := List.cons.inj e
        obtain ⟨h3, e⟩ := List.cons.inj e
        subst h1 h2 h3
        have e' : t = c'' ++ k :: B := by simpa using e
        have hs : ∀ p, p <:+ c'' → p <:+ a ++ 'n' :: x :: y :: c'' := fun p hp =>
          hp.trans ⟨a ++ ['n', x, y], by simp⟩
        exact Or.inr ⟨c'', k, B, e', hk, fun h => f1 (hs _ h), fun h => f2 (hs _ h), fun h => f3 (hs _ h)⟩
    · cases c' with
      | nil =>
        have : k = 'n' := by simpa using (List.cons.inj e).1
        subst this
        exact absurd hk (by decide)
      | cons d c' =>
        have : k = d := by simpa using (List.cons.inj e).1
        subst this
        exact Or.inl ⟨k, by simp, hk⟩
  · rintro (⟨k, hka, hk⟩ | ⟨A, k, B, rfl, hk, f1, f2, f3⟩)
    · obtain ⟨A, B, rfl⟩ := List.append_of_mem hka
      obtain ⟨f1, f2, f3⟩ := free_of_ynext ha hk
      exact ⟨A, k, B ++ ('n' :: [x, y] ++ t), by simp, hk, f1, f2, f3⟩
    · refine ⟨a ++ 'n' :: x :: y :: A, k, B, by simp, hk, ?_, ?_, ?_⟩
      · intro h; exact f1 (suffix_one (l := a ++ ['n', x]) (by simpa using h) y1)
      · intro h; exact f2 (suffix_two (l := a ++ ['n', x]) (by simpa using h) y1 y2)
      · intro h; exact f3 (suffix_two (l := a ++ ['n', x]) (by simpa using h) y1 y3)

theorem free_ynext {t : Str} (h : AllLoc YNext t) : Spec.FreeKana t ↔ ∃ k ∈ t, Spec.Kana k := by
  constructor
  · rintro ⟨A, k, B, rfl, hk, _⟩
    exact ⟨k, by simp, hk⟩
  · rintro ⟨k, hkt, hk⟩
    obtain ⟨A, B, rfl⟩ := List.append_of_mem hkt
    obtain ⟨f1, f2, f3⟩ := free_of_ynext h hk
    exact ⟨A, k, B, rfl, hk, f1, f2, f3⟩

/-! ## typing a result with small letters -/

theorem type_low {w : Str} (hw : w ∈ Spec.tsuY) : ∃ w' p, (w', p) ∈ typeY ∧ w'.map h2kP = w.map h2kP ∧
    ('ッ' ∉ w → w' = w) ∧ ∀ c ∈ p, c ∈ ['y', 'a', 'i', 'u', 'o'] := by
  simp only [Spec.tsuY, List.mem_cons, List.not_mem_nil, or_false] at hw
  rcases hw with rfl | rfl | rfl | rfl | rfl | rfl | rfl | rfl
  · exact ⟨['っ', 'や'], ['y', 'y', 'a'], by decide⟩
  · exact ⟨['っ', 'い'], ['y', 'y', 'i'], by decide⟩
  · exact ⟨['っ', 'ゆ'], ['y', 'y', 'u'], by decide⟩
  · exact ⟨['っ', 'よ'], ['y', 'y', 'o'], by decide⟩
  · exact ⟨['っ', 'や'], ['y', 'y', 'a'], by decide⟩
  · exact ⟨['っ', 'い'], ['y', 'y', 'i'], by decide⟩
  · exact ⟨['っ', 'ゆ'], ['y', 'y', 'u'], by decide⟩
  · exact ⟨['っ', 'よ'], ['y', 'y', 'o'], by decide⟩

theorem cut_before_n {m : Mode} {a b : Str} {c : Char} (hc : toAsciiLowercase c = 'n')
    (hl : ∀ x, a.getLast? = some x → toAsciiLowercase x ≠ 'x' ∧ toAsciiLowercase x ≠ 'n') : Cut m a (c :: b) := by
  apply cut_of_not_adjacent
  intro x y hx hy hadj
  have hy' : c = y := by simpa using hy
  subst hy'
  rw [asciiLower_eq, hc] at hadj
  obtain ⟨h1, h2⟩ := hl x hx
  obtain ⟨k, hk, p', q', e'⟩ := hadj
  have hall : ([Mode.normal, .obsolete, .ime].all fun m => (tableOf m).all fun k =>
      (k.1.zip k.1.tail).all fun x => decide (x.2 = 'n' → x.1 = 'x' ∨ x.1 = 'n')) = true := by decide +kernel
  have := List.all_eq_true.1 (List.all_eq_true.1 (List.all_eq_true.1 hall m (by cases m <;> simp)) k hk)
    (toAsciiLowercase x, 'n') (by
      rw [← e']
      clear e'
      induction p' with
      | nil => simp
      | cons x p ih =>
        cases p with
        | nil => simp
        | cons y p => simp at ih ⊢; exact Or.inr ih)
  rw [decide_eq_true_iff] at this
  exact (this rfl).elim h1 h2

/-- A text that meets the condition of C97 can be typed with small letters for the doubled y-syllables behind `n`; the
free kana stay. -/
theorem exists_low {m : Mode} (hm : m ≠ .ime) (t : Str) (h : AllLoc OkAfterN t)
    (hN : ∀ c ∈ t, toAsciiLowercase c = 'n' → c = 'n') :
    ∃ q, (kana m q).map h2kP = t.map h2kP ∧ ('ッ' ∉ t → kana m q = t) ∧
      (∀ c ∈ q, c ∈ t ∨ c ∈ ['y', 'a', 'i', 'u', 'o']) ∧ (∀ c ∈ t, ¬ Spec.Kana c → c ∈ q) ∧
      ((∃ k ∈ q, Spec.Kana k) ↔ Spec.FreeKana t) ∧ q.head? = t.head? := by
  induction t using list_strong with
  | _ t ih =>
    rcases first_n t h with h' | ⟨a, c, w, t', e, ha, hc, hw, hl⟩
    · have := (leftAlone_loc hm t).2 h'
      exact ⟨t, by rw [this], fun _ => this, fun c hc => Or.inl hc, fun c hc _ => hc, (free_ynext h').symm, rfl⟩
    · subst e
      obtain rfl := hN c (by simp) hc
      obtain ⟨w', p, hp, hw1, hw2, hpc⟩ := type_low hw
      have ht : AllLoc OkAfterN t' := allLoc_split (a := a ++ 'n' :: w) (by simpa using h)
      obtain ⟨q, q1, q2, q3, q4, q5, q6⟩ := ih t' (by simp; omega) ht (fun c hc => hN c (by simp [hc]))
      have hk : kana m (a ++ ('n' :: p ++ q)) = a ++ ('n' :: w' ++ kana m q) := by
        have hcut : Cut m a ('n' :: p ++ q) := cut_before_n (b := p ++ q) hc hl
        rw [kana_append _ _ hcut, (leftAlone_loc hm a).2 ha, kana_typeY hm hp hc]
      refine ⟨a ++ ('n' :: p ++ q), ?_, ?_, ?_, ?_, ?_, ?_⟩
      · rw [hk]; simp [q1, hw1]
      · intro hn
        rw [hk, q2 (fun h => hn (by simp [h])), hw2 (fun h => hn (by simp [h]))]
      · intro c hc
        simp only [List.mem_append, List.mem_cons, List.cons_append] at hc ⊢
        rcases hc with hc | hc | hc | hc
        · exact Or.inl (Or.inl hc)
        · exact Or.inl (Or.inr (Or.inl hc))
        · have := hpc c hc
          simp only [List.mem_cons] at this
          exact Or.inr this
        · have := q3 c hc
          simp only [List.mem_cons] at this
          rcases this with h | h
          · exact Or.inl (Or.inr (Or.inr (Or.inr h)))
          · exact Or.inr h
      · intro c hc hk
        simp only [List.mem_append, List.mem_cons, List.cons_append] at hc ⊢
        rcases hc with hc | hc | hc | hc
        · exact Or.inl hc
        · exact Or.inr (Or.inl hc)
        · obtain ⟨x, y, rfl, _, hkx, hky, _⟩ := tsuY_shape hw
          simp only [List.mem_cons, List.not_mem_nil, or_false] at hc
          rcases hc with rfl | rfl
          · exact absurd hkx hk
          · exact absurd hky hk
        · exact Or.inr (Or.inr (Or.inr (q4 c hc hk)))
      · rw [free_split ha hw, ← q5]
        have hpk : ∀ k ∈ p, ¬ Spec.Kana k := by
          intro k hk1 hk2
          have := hpc k hk1
          simp only [List.mem_cons, List.not_mem_nil, or_false] at this
          rcases this with rfl | rfl | rfl | rfl | rfl <;> exact absurd hk2 (by decide)
        constructor
        · rintro ⟨k, hk, hkk⟩
          simp only [List.mem_append, List.mem_cons, List.cons_append] at hk
          rcases hk with hk | rfl | hk | hk
          · exact Or.inl ⟨k, hk, hkk⟩
          · exact absurd hkk (by decide)
          · exact absurd hkk (hpk k hk)
          · exact Or.inr ⟨k, hk, hkk⟩
        · rintro (⟨k, hk, hkk⟩ | ⟨k, hk, hkk⟩)
          · exact ⟨k, by simp [hk], hkk⟩
          · exact ⟨k, by simp [hk], hkk⟩
      · cases a <;> simp

/-! ## marks -/

/-- the marks and their keys -/
def markKeys : List (Char × Char) :=
  [('。', '.'), ('、', ','), ('：', ':'), ('！', '!'), ('？', '?'), ('〜', '~'), ('［', '['), ('］', ']'), ('（', '('), ('）', ')'),
   ('｛', '{'), ('｝', '}'), ('「', '‘'), ('」', '’'), ('『', '“'), ('』', '”')]

/-- the key for a mark -/
def unmark (c : Char) : Char := ((markKeys.find? fun x => x.1 == c).map (·.2)).getD c

theorem unmark_cases (c : Char) : unmark c = c ∨ (c, unmark c) ∈ markKeys := by
  unfold unmark
  cases h : markKeys.find? fun x => x.1 == c with
  | none => exact Or.inl rfl
  | some x =>
    have h1 := List.find?_some h
    have h2 := List.mem_of_find?_eq_some h
    right
    show (c, x.2) ∈ markKeys
    rw [← eq_of_beq h1]; exact h2

/-- whether a character is one of the marks -/
def isTypedMark (c : Char) : Bool := markKeys.any fun x => x.1 == c

theorem unmark_of_not {c : Char} (h : isTypedMark c = false) : unmark c = c := by
  rcases unmark_cases c with h' | h'
  · exact h'
  · unfold isTypedMark at h
    rw [List.any_eq_false] at h
    exact absurd (beq_self_eq_true c) (h _ h')

theorem unmark_of_mark {c : Char} (h : isTypedMark c = true) : (c, unmark c) ∈ markKeys := by
  obtain ⟨x, hx, hc⟩ := List.any_eq_true.1 h
  rw [← eq_of_beq hc]
  have : (markKeys.all fun x => decide ((x.1, unmark x.1) ∈ markKeys)) = true := by decide
  exact of_decide_eq_true (List.all_eq_true.1 this x hx)

theorem kana_markKey (m : Mode) {c d : Char} (h : (c, d) ∈ markKeys) (t : Str) : kana m (d :: t) = c :: kana m t := by
  have hall : ([Mode.normal, .obsolete, .ime].all fun m => markKeys.all fun x =>
      match (tree m).walk [toAsciiLowercase x.2] with
      | some n => n.transitions.isEmpty && (match n.output with | some out => decide (styled [x.2] out = [x.1]) | _ => false)
      | none => false) = true := by decide +kernel
  have := List.all_eq_true.1 (List.all_eq_true.1 hall m (by cases m <;> simp)) (c, d) h
  cases hw : (tree m).walk [toAsciiLowercase d] with
  | none => simp only [hw] at this; cases this
  | some n =>
    simp only [hw, Bool.and_eq_true, List.isEmpty_iff] at this
    obtain ⟨hl, ho⟩ := this
    cases hout : n.output with
    | none => rw [hout] at ho; cases ho
    | some out =>
      simp only [hout, decide_eq_true_iff] at ho
      have hst : KNode.Stops (tree m) (d :: t) n 1 :=
        ⟨by simp, by simpa [KNode.low] using hw, fun e _ => find_none_of_leaf hl _⟩
      rw [kana_hit hst hout]
      show styled [d] out ++ kana m t = _
      rw [ho]; rfl

theorem cut_before_mark {m : Mode} {a b : Str} {c d : Char} (h : (c, d) ∈ markKeys) : Cut m a (d :: b) := by
  apply cut_of_not_adjacent
  intro x y hx hy hadj
  have hy' : d = y := by simpa using hy
  subst hy'
  obtain ⟨k, hk, p', q', e'⟩ := hadj
  have hall : ([Mode.normal, .obsolete, .ime].all fun m => (tableOf m).all fun k =>
      (k.1.zip k.1.tail).all fun x => markKeys.all fun y => !decide (x.2 = Spec.asciiLower y.2)) = true := by decide +kernel
  have := List.all_eq_true.1 (List.all_eq_true.1 (List.all_eq_true.1 (List.all_eq_true.1 hall m (by cases m <;> simp)) k hk)
    (Spec.asciiLower x, Spec.asciiLower d) (by
      rw [← e']
      clear e'
      induction p' with
      | nil => simp
      | cons x p ih =>
        cases p with
        | nil => simp
        | cons y p => simp at ih ⊢; exact Or.inr ih)) _ h
  simp at this

theorem mark_ge {c d : Char} (h : (c, d) ∈ markKeys) : 0x2100 ≤ c.toNat := by
  have : (markKeys.all fun x => decide (0x2100 ≤ x.1.toNat)) = true := by decide
  exact of_decide_eq_true (List.all_eq_true.1 this _ h)

/-- Typing the keys instead of the marks gives the same text. -/
theorem kana_unmark (m : Mode) (q : Str) : kana m (q.map unmark) = kana m q := by
  induction q using list_strong with
  | _ q ih =>
    have hfirst : ∀ q : Str, (∀ c ∈ q, isTypedMark c = false) ∨
        ∃ l c r, q = l ++ c :: r ∧ (∀ c ∈ l, isTypedMark c = false) ∧ isTypedMark c = true := by
      intro q
      induction q with
      | nil => left; simp
      | cons c q ih =>
        cases hc : isTypedMark c with
        | true => exact Or.inr ⟨[], c, q, rfl, by simp, hc⟩
        | false =>
          rcases ih with h | ⟨l, d, r, rfl, h1, h2⟩
          · left; intro e he
            rcases List.mem_cons.1 he with rfl | he
            · exact hc
            · exact h e he
          · right
            refine ⟨c :: l, d, r, rfl, ?_, h2⟩
            intro e he
            rcases List.mem_cons.1 he with rfl | he
            · exact hc
            · exact h1 e he
    have hid : ∀ l : Str, (∀ c ∈ l, isTypedMark c = false) → l.map unmark = l := by
      intro l hl
      have : l.map unmark = l.map id := List.map_congr_left fun c hc => unmark_of_not (hl c hc)
      rw [this, List.map_id]
    rcases hfirst q with h | ⟨l, c, r, rfl, h1, h2⟩
    · rw [hid q h]
    · have hm := unmark_of_mark h2
      rw [List.map_append, hid l h1, List.map_cons, kana_append _ _ (cut_before_mark hm), kana_markKey m hm,
        kana_append_inert l (inert_of_ge (mark_ge hm)), ih r (by simp; omega)]

/-! ## what results have -/

/-- a kana of the text that is converted stays, and is free in the result -/
theorem free_of_kana {m : Mode} (hm : m ≠ .ime) {s : Str} {k : Char} (hk : k ∈ s) (hkk : Spec.Kana k) :
    Spec.FreeKana (kana m s) ∧ Spec.FreeKana ((kana m s).map h2kP) := by
  obtain ⟨A, B, rfl⟩ := List.append_of_mem hk
  rw [kana_append_inert A (inert_of_ge (kana_ge hkk))]
  have hloc := result_loc hm A
  have f : ¬ ['n'] <:+ kana m A ∧ ¬ ['n', 'っ'] <:+ kana m A ∧ ¬ ['n', 'ッ'] <:+ kana m A := by
    refine ⟨?_, ?_, ?_⟩
    · rintro ⟨x, e⟩
      rw [← e] at hloc
      rcases (allLoc_split hloc).1.n (by decide) with ⟨d, hd, _⟩ | ⟨w, hw, hp⟩
      · cases hd
      · obtain ⟨x, y, rfl, _⟩ := tsuY_shape hw
        exact absurd hp.length_le (by simp)
    · rintro ⟨x, e⟩
      rw [← e] at hloc
      rcases (allLoc_split hloc).1.n (by decide) with ⟨d, hd, hy⟩ | ⟨w, hw, hp⟩
      · cases hd; exact absurd hy (by decide)
      · obtain ⟨x, y, rfl, _⟩ := tsuY_shape hw
        exact absurd hp.length_le (by simp)
    · rintro ⟨x, e⟩
      rw [← e] at hloc
      rcases (allLoc_split hloc).1.n (by decide) with ⟨d, hd, hy⟩ | ⟨w, hw, hp⟩
      · cases hd; exact absurd hy (by decide)
      · obtain ⟨x, y, rfl, _⟩ := tsuY_shape hw
        exact absurd hp.length_le (by simp)
  refine ⟨⟨_, _, _, rfl, hkk, f⟩, (kana m A).map h2kP, h2kP k, (kana m B).map h2kP, by simp, ?_, ?_⟩
  · rw [specKana_iff] at hkk ⊢
    rw [h2kP_toNat]
    split <;> omega
  · have hn : ∀ (d : Char), d.toNat < 0x3041 → ∀ c, h2kP c = d ↔ c = d := fun d hd c => h2kP_eq_iff hd
    refine ⟨?_, ?_, ?_⟩
    · rintro ⟨x, e⟩
      obtain ⟨a1, a2, e1, _, e3⟩ := List.map_eq_append_iff.1 e.symm
      obtain ⟨c, rfl, h1⟩ : ∃ c, a2 = [c] ∧ h2kP c = 'n' := by
        simpa [List.map_eq_cons_iff] using e3
      have := (h2kP_eq_iff (by decide)).1 h1
      subst this
      exact f.1 ⟨a1, e1.symm⟩
    · rintro ⟨x, e⟩
      obtain ⟨a1, a2, e1, _, e3⟩ := List.map_eq_append_iff.1 e.symm
      obtain ⟨c, d, rfl, h1, h2⟩ : ∃ c d, a2 = [c, d] ∧ h2kP c = 'n' ∧ h2kP d = 'っ' := by
        match a2 with
        | [] => simp at e3
        | [c] => simp at e3
        | [c, d] => exact ⟨c, d, rfl, by simpa using e3⟩
        | _ :: _ :: _ :: _ => simp at e3
      have := (h2kP_eq_iff (by decide)).1 h1
      subst this
      rcases h2kP_tsu_iff.1 (Or.inl h2) with rfl | rfl
      · exact f.2.1 ⟨a1, e1.symm⟩
      · exact f.2.2 ⟨a1, e1.symm⟩
    · rintro ⟨x, e⟩
      obtain ⟨a1, a2, e1, _, e3⟩ := List.map_eq_append_iff.1 e.symm
      obtain ⟨c, d, rfl, h1, h2⟩ : ∃ c d, a2 = [c, d] ∧ h2kP c = 'n' ∧ h2kP d = 'ッ' := by
        match a2 with
        | [] => simp at e3
        | [c] => simp at e3
        | [c, d] => exact ⟨c, d, rfl, by simpa using e3⟩
        | _ :: _ :: _ :: _ => simp at e3
      have := (h2kP_eq_iff (by decide)).1 h1
      subst this
      rcases h2kP_tsu_iff.1 (Or.inr h2) with rfl | rfl
      · exact f.2.1 ⟨a1, e1.symm⟩
      · exact f.2.2 ⟨a1, e1.symm⟩

theorem outputs_typed {m : Mode} {x : Str} {n : KNode} {out : Str} (hw : (tree m).walk (low x) = some n)
    (ho : n.output = some out) (hx : ∀ c ∈ x, Spec.Romaji c) : ∀ c ∈ out, Spec.Kana c ∨ c ∈ Spec.keyboardMarks := by
  have h : ([Mode.normal, .obsolete, .ime].all fun m => (tree m).paths.all fun x =>
      match x.2.output with
      | none => true
      | some out => !(x.1.all fun c => decide (c.toNat < 0x180)) ||
        out.all fun c => decide (Spec.Kana c) || decide (c ∈ Spec.keyboardMarks)) = true := by
    decide +kernel
  have := walk_check (List.all_eq_true.1 h m (by cases m <;> simp)) hw
  simp only [ho] at this
  have hlow : ((low x).all fun c => decide (c.toNat < 0x180)) = true := by
    rw [List.all_eq_true]
    intro c hc
    unfold low at hc
    obtain ⟨d, hd, rfl⟩ := List.mem_map.1 hc
    have hr := hx d hd
    rw [specRomaji_iff] at hr
    simp only [List.mem_cons, List.not_mem_nil, or_false] at hr
    rw [decide_eq_true_iff, toAsciiLowercase_toNat]
    split <;> omega
  rw [hlow] at this
  intro c hc
  have := List.all_eq_true.1 (by simpa using this : (out.all fun c => decide (Spec.Kana c) || decide (c ∈ Spec.keyboardMarks)) = true) c hc
  simpa using this

theorem kana_h2kP {c : Char} (h : Spec.Kana c) : Spec.Kana (h2kP c) := by
  rw [specKana_iff] at h ⊢
  rw [h2kP_toNat]
  split <;> omega

theorem mark_h2kP {c : Char} (h : c ∈ Spec.keyboardMarks) : h2kP c = c := by
  have : (Spec.keyboardMarks.all fun c => decide (h2kP c = c)) = true := by decide
  exact of_decide_eq_true (List.all_eq_true.1 this c h)

theorem romaji_h2kP {c : Char} (h : Spec.Romaji c) : h2kP c = c := by
  rw [specRomaji_iff] at h
  simp only [List.mem_cons, List.not_mem_nil, or_false] at h
  apply char_ext
  rw [h2kP_toNat, if_neg (by omega)]

/-- romaji gives romaji, kana and marks of the keyboard -/
theorem typed_of_romaji (m : Mode) {s : Str} (h : ∀ c ∈ s, Spec.Romaji c) : Spec.AllTyped (kana m s) := by
  intro c hc
  rcases mem_kana_cases m s c hc with hc | ⟨s1, x, s2, n, out, rfl, _, hw, ho, hc⟩
  · exact Or.inl (h c hc)
  · have hx : ∀ c ∈ x, Spec.Romaji c := fun c hc => h c (by simp [hc])
    have := outputs_typed hw ho hx
    unfold styled at hc
    split at hc
    · obtain ⟨d, hd, rfl⟩ := List.mem_map.1 hc
      rcases this d hd with h | h
      · exact Or.inr (Or.inl (kana_h2kP h))
      · rw [mark_h2kP h]; exact Or.inr (Or.inr h)
    · exact Or.inr (this c hc)

theorem typed_h2k {t : Str} (h : Spec.AllTyped t) : Spec.AllTyped (t.map h2kP) := by
  intro c hc
  obtain ⟨d, hd, rfl⟩ := List.mem_map.1 hc
  rcases h d hd with h | h | h
  · rw [romaji_h2kP h]; exact Or.inl h
  · exact Or.inr (Or.inl (kana_h2kP h))
  · rw [mark_h2kP h]; exact Or.inr (Or.inr h)

theorem lower_romaji {std : Std} (hstd : std.Lawful) {s : Str} (h : ∀ c ∈ s, Spec.Romaji c) :
    ∀ c ∈ std.toLowercase s, Spec.Romaji c := by
  intro c hc
  unfold Std.toLowercase at hc
  rw [toLowercase_romaji hstd s h] at hc
  obtain ⟨d, hd, rfl⟩ := List.mem_map.1 hc
  have hr := h d hd
  rw [specRomaji_iff] at hr
  unfold romajiLower
  split
  · next hm =>
    rw [isMacron, List.contains_iff_mem] at hm
    simp only [List.mem_cons, List.not_mem_nil, or_false] at hm
    rcases hm with h | h | h | h | h | h | h | h | h | h <;> rw [h] <;> decide
  · next hm =>
    rw [isMacron, List.contains_iff_mem] at hm
    have hd : d.toNat < 0x80 := by
      simp only [List.mem_cons, List.not_mem_nil, or_false] at hr hm
      omega
    rw [specRomaji_iff, toAsciiLowercase_toNat]
    left
    split <;> omega

/-- the condition behind an `n` in IME mode -/
def ImeNext (t : Str) : Prop := ∀ d, t.head? = some d → toAsciiLowercase d ∉ ['n', '\'', ' ']

theorem kanaResult_ime (r : Str) : Spec.KanaResult true r ↔ AllLoc ImeNext r := by
  unfold Spec.KanaResult
  rw [asciiLower_eq, allLoc_iff ImeNext (fun b => ∀ d, b.head? = some d → d ∉ ['n', '\'', ' '])]
  · have : (∀ d ∈ ['n', '\'', ' '], ¬ Spec.Occurs ['n', d] (low r)) ↔
        ∀ a b, low r = a ++ 'n' :: b → ∀ d, b.head? = some d → d ∉ ['n', '\'', ' '] := by
      constructor
      · intro h a b e d hd hm
        cases b with
        | nil => cases hd
        | cons d' b =>
          cases hd
          exact h d hm ⟨a, b, by rw [e]; simp⟩
      · rintro h d hd ⟨a, b, e⟩
        exact h a (d :: b) (by rw [e]; simp) d rfl hd
    rw [if_pos rfl, ← this]
  · intro t
    cases t with
    | nil => simp [ImeNext, low]
    | cons d t => simp [ImeNext, low]

theorem h2kP_low_eq {c x : Char} (hx : x.toNat < 0x3041) (h : toAsciiLowercase (h2kP c) = x) : h2kP c = c := by
  by_cases hc : 0x3041 ≤ c.toNat ∧ c.toNat ≤ 0x3096
  · exfalso
    have := congrArg Char.toNat h
    rw [toAsciiLowercase_toNat, h2kP_toNat, if_pos hc, if_neg (by omega)] at this
    omega
  · apply char_ext; rw [h2kP_toNat, if_neg hc]

theorem allLoc_h2k {P : Str → Prop} (hP : ∀ t, P t → P (t.map h2kP)) {t : Str} (h : AllLoc P t) :
    AllLoc P (t.map h2kP) := by
  induction t with
  | nil => trivial
  | cons c t ih =>
    refine ⟨?_, ih h.2⟩
    by_cases hc : 0x3041 ≤ c.toNat ∧ c.toNat ≤ 0x3096
    · apply loc_of_ge
      rw [h2kP_toNat, if_pos hc]; omega
    · have e : h2kP c = c := by apply char_ext; rw [h2kP_toNat, if_neg hc]
      show Loc P (h2kP c) _
      rw [e]
      refine ⟨h.1.sole, ?_, fun hn => hP _ (h.1.n hn)⟩
      intro hx d hd hn
      cases t with
      | nil => cases hd
      | cons d' t =>
        have hd' : h2kP d' = d := by simpa using hd
        subst hd'
        rw [h2kP_low_eq (by decide) hn] at hn
        exact h.1.xn hx d' rfl hn

theorem ok_h2k {t : Str} (h : OkAfterN t) : OkAfterN (t.map h2kP) := by
  rcases h with ⟨d, hd, hy⟩ | ⟨w, hw, u, rfl⟩
  · cases t with
    | nil => cases hd
    | cons d' t =>
      cases hd
      left
      refine ⟨h2kP d, rfl, ?_⟩
      have : h2kP d = d := by
        apply char_ext
        have e := congrArg Char.toNat hy
        rw [toAsciiLowercase_toNat] at e
        simp only [Char.reduceToNat] at e
        rw [h2kP_toNat, if_neg]
        split at e <;> omega
      rw [this]; exact hy
  · right
    have : (Spec.tsuY.all fun w => decide (w.map h2kP ∈ Spec.tsuY)) = true := by decide
    exact ⟨w.map h2kP, of_decide_eq_true (List.all_eq_true.1 this w hw), u.map h2kP, by simp⟩

theorem ime_h2k {t : Str} (h : ImeNext t) : ImeNext (t.map h2kP) := by
  intro d hd hm
  cases t with
  | nil => cases hd
  | cons d' t =>
    have hd' : h2kP d' = d := by simpa using hd
    subst hd'
    have hlt : (toAsciiLowercase (h2kP d')).toNat < 0x3041 := by
      simp only [List.mem_cons, List.not_mem_nil, or_false] at hm
      rcases hm with h | h | h <;> rw [h] <;> decide
    rw [h2kP_low_eq hlt rfl] at hm
    exact h d' rfl hm

theorem kanaResult_kana (m : Mode) (s : Str) : Spec.KanaResult (decide (m = .ime)) (kana m s) := by
  by_cases hm : m = .ime
  · have h2 : Spec.KanaResult (decide (m = .ime)) (kana m s) ↔ Spec.LeftAlone (decide (m = .ime)) (kana m s) := by
      rw [decide_eq_true hm]; exact Iff.rfl
    rw [h2, ← leftAlone_iff]
    exact kana_idem _ s (Or.inl hm)
  · rw [decide_eq_false hm, kanaResult_iff]
    exact result_loc hm s

theorem kanaResult_h2k {ime : Bool} {t : Str} (h : Spec.KanaResult ime t) : Spec.KanaResult ime (t.map h2kP) := by
  cases ime with
  | true =>
    rw [kanaResult_ime] at h ⊢
    exact allLoc_h2k (P := ImeNext) (fun _ => ime_h2k) h
  | false =>
    rw [kanaResult_iff] at h ⊢
    exact allLoc_h2k (P := OkAfterN) (fun _ => ok_h2k) h

theorem mixedText_iff {t : Str} : is_mixed t = true ↔ Spec.MixedText t := C04_is_mixed t

theorem romajiText_iff {t : Str} : is_romaji t = true ↔ Spec.RomajiText t := C01_is_romaji t

/-- in a text without kana next to romaji, every `n` of a result is before `y` -/
theorem leftAlone_of_result {m : Mode} {t : Str} (h : Spec.KanaResult (decide (m = .ime)) t)
    (hm : m = .ime ∨ ¬ Spec.MixedText t) : kana m t = t := by
  by_cases hi : m = .ime
  · have h2 : Spec.KanaResult (decide (m = .ime)) t ↔ Spec.LeftAlone (decide (m = .ime)) t := by
      rw [decide_eq_true hi]; exact Iff.rfl
    rw [h2, ← leftAlone_iff] at h
    exact h
  · have hx := hm.resolve_left hi
    rw [decide_eq_false hi, kanaResult_iff] at h
    rw [leftAlone_loc hi]
    rcases first_n t h with h' | ⟨a, c, w, t', e, ha, hc, hw, hl⟩
    · exact h'
    · exfalso
      apply hx
      obtain ⟨x, y, rfl, _, hkx, _⟩ := tsuY_shape hw
      refine ⟨⟨x, by simp [e], hkx⟩, c, by simp [e], ?_⟩
      rw [specRomaji_iff]
      left
      have e := congrArg Char.toNat hc
      rw [toAsciiLowercase_toNat] at e
      simp only [Char.reduceToNat] at e
      split at e <;> omega

theorem settled_n {std : Std} (hstd : std.Lawful) {t : Str} (h : ∀ c ∈ t, Settled std c) :
    ∀ c ∈ t, toAsciiLowercase c = 'n' → c = 'n' := by
  intro c hc hn
  have := settled_not_upper hstd (h c hc)
  rw [← hn]
  apply char_ext
  rw [toAsciiLowercase_toNat, if_neg this]

theorem settled_y {std : Std} (hstd : std.Lawful) {c : Char} (h : c ∈ ['y', 'a', 'i', 'u', 'o']) : Settled std c := by
  have hc : c.toNat < 0x80 ∧ toAsciiLowercase c = c ∧ c ≠ 'Σ' := by
    simp only [List.mem_cons, List.not_mem_nil, or_false] at h
    rcases h with rfl | rfl | rfl | rfl | rfl <;> decide
  refine ⟨?_, hc.2.2⟩
  rw [hstd.lowerChar_ascii c hc.1, hc.2.1]

theorem settled_markKey {std : Std} (hstd : std.Lawful) {c d : Char} (h : (c, d) ∈ markKeys) : Settled std d := by
  have hall : (markKeys.all fun x => decide (x.2 ≠ 'Σ' ∧ (x.2.toNat < 0x80 ∧ toAsciiLowercase x.2 = x.2 ∨
    0x2010 ≤ x.2.toNat ∧ x.2.toNat ≤ 0x2027))) = true := by decide
  have := of_decide_eq_true (List.all_eq_true.1 hall _ h)
  rcases this.2 with h1 | h1
  · refine ⟨?_, this.1⟩
    rw [hstd.lowerChar_ascii d h1.1, h1.2]
  · apply settled_uncased hstd
    unfold Uncased
    have := h1; simp only at this
    omega

theorem settled_unmark {std : Std} (hstd : std.Lawful) {c : Char} (h : Settled std c) : Settled std (unmark c) := by
  rcases unmark_cases c with e | hm
  · rw [e]; exact h
  · exact settled_markKey hstd hm

theorem unmark_kana {c : Char} (h : ¬ Spec.Kana c) : ¬ Spec.Kana (unmark c) := by
  rcases unmark_cases c with e | hm
  · rw [e]; exact h
  · have hall : (markKeys.all fun x => decide (¬ Spec.Kana x.2)) = true := by decide
    exact of_decide_eq_true (List.all_eq_true.1 hall _ hm)

theorem unmark_keyboard {c : Char} (h : c ∈ Spec.keyboardMarks) : Spec.Romaji (unmark c) := by
  have hall : (Spec.keyboardMarks.all fun x => decide (Spec.Romaji (unmark x))) = true := by decide
  exact of_decide_eq_true (List.all_eq_true.1 hall _ h)

theorem unmark_romaji {c : Char} (h : Spec.Romaji c) : unmark c = c := by
  rcases unmark_cases c with e | hm
  · exact e
  · have hge := mark_ge hm
    rw [specRomaji_iff] at h
    simp only [List.mem_cons, List.not_mem_nil, or_false] at h
    omega

/-- **C118** Exactly which texts are results of `to_katakana`, for every option. -/
theorem C118_katakana {std : Std} (hstd : std.Lawful) (t : Str) (o : Options) :
    (∃ s, to_katakana_with_opt std s o = .ok t) ↔ (∀ c ∈ t, ¬ Spec.HiraganaLetter c) ∧
      (o.pass_romaji = true ∨ (¬ Spec.RomajiText t ∧ ¬ Spec.MixedText t) ∨
        (std.toLowercase t = t ∧ Spec.KanaResult (o.imemode && !o.use_obsolete_kana) t ∧
          ((o.imemode && !o.use_obsolete_kana) = true ∨ Spec.FreeKana t ∨ Spec.AllTyped t))) := by
  have e0 : (∃ s, to_katakana_with_opt std s o = .ok t) ↔ ∃ s, kataP std s o = t := by
    constructor
    · rintro ⟨s, h⟩
      rw [to_katakana_eq hstd] at h
      exact ⟨s, Except.ok.inj h⟩
    · rintro ⟨s, h⟩
      exact ⟨s, by rw [to_katakana_eq hstd, h]⟩
  rw [e0, ← ime_of_mode, decide_eq_true_iff]
  have fixed : (∀ c ∈ t, ¬ Spec.HiraganaLetter c) → t.map h2kP = t := by
    intro h
    have := (C95_hiragana_to_katakana t).2 h
    rw [hiragana_to_katakana_eq] at this
    exact Except.ok.inj this
  constructor
  · rintro ⟨s, rfl⟩
    refine ⟨C42_no_hiragana hstd s _ o (to_katakana_eq hstd s o), ?_⟩
    by_cases hp : o.pass_romaji = true
    · exact Or.inl hp
    right
    by_cases hr : (is_romaji s || is_mixed s) = true
    · right
      have e : kataP std s o = (kana (modeOf o) (std.toLowercase s)).map h2kP := by
        unfold kataP; rw [if_neg hp, if_pos hr]
      rw [e]
      refine ⟨?_, kanaResult_h2k (kanaResult_kana _ _), ?_⟩
      · apply toLowercase_id
        intro c hc
        obtain ⟨d, hd, rfl⟩ := List.mem_map.1 hc
        exact h2kP_settled hstd (kana_settled hstd _ _ (fun c hc => lower_settled hstd hc) d hd)
      · by_cases hi : modeOf o = .ime
        · exact Or.inl hi
        right
        rw [Bool.or_eq_true] at hr
        rcases hr with hr | hr
        · right
          exact typed_h2k (typed_of_romaji _ (lower_romaji hstd (romajiText_iff.1 hr).2))
        · left
          obtain ⟨⟨k, hk, hkk⟩, _⟩ := mixedText_iff.1 hr
          exact (free_of_kana hi (mem_lowerFrom hstd (kana_uncased hkk) s hk []) hkk).2
    · left
      have e : kataP std s o = s.map h2kP := by
        unfold kataP; rw [if_neg hp, if_neg hr]
      rw [Bool.or_eq_true, not_or] at hr
      rw [e, ← romajiText_iff, ← mixedText_iff, (katakana_shift_class s).1, (katakana_shift_class s).2]
      exact hr
  · rintro ⟨hh, h⟩
    have hfix := fixed hh
    by_cases hp : o.pass_romaji = true
    · exact ⟨t, by unfold kataP; rw [if_pos hp, hfix]⟩
    have h := h.resolve_left hp
    by_cases hc : Spec.RomajiText t ∨ Spec.MixedText t
    · obtain ⟨hlow, hres, hx⟩ := h.resolve_left (fun hn => hc.elim hn.1 hn.2)
      have hset := settled_of_lower hstd hlow
      by_cases hi : modeOf o = .ime ∨ ¬ Spec.MixedText t
      · refine ⟨t, ?_⟩
        have hcl : (is_romaji t || is_mixed t) = true := by
          rw [Bool.or_eq_true, romajiText_iff, mixedText_iff]; exact hc
        unfold kataP
        rw [if_neg hp, if_pos hcl, hlow, leftAlone_of_result hres hi, hfix]
      · rw [not_or, Classical.not_not] at hi
        obtain ⟨hi, hmix⟩ := hi
        have hx := hx.resolve_left hi
        rw [decide_eq_false hi, kanaResult_iff] at hres
        obtain ⟨q, q1, _, q3, q4, q5, _⟩ := exists_low hi t hres (settled_n hstd hset)
        have qset : ∀ c ∈ q, Settled std c := by
          intro c hc
          rcases q3 c hc with h | h
          · exact hset c h
          · exact settled_y hstd h
        by_cases hf : Spec.FreeKana t
        · refine ⟨q, ?_⟩
          have hcl : (is_romaji q || is_mixed q) = true := by
            rw [Bool.or_eq_true, mixedText_iff]
            right
            obtain ⟨_, r, hr, hrr⟩ := hmix
            refine ⟨q5.2 hf, r, q4 r hr ?_, hrr⟩
            intro hk
            rw [romaji_h2kP hrr |>.symm] at hk
            have := kana_ge hk
            rw [romaji_h2kP hrr] at this
            rw [specRomaji_iff] at hrr
            simp only [List.mem_cons, List.not_mem_nil, or_false] at hrr
            omega
          unfold kataP
          rw [if_neg hp, if_pos hcl, toLowercase_id qset, q1, hfix]
        · have hall := hx.resolve_left hf
          have qr : ∀ c ∈ q, Spec.Romaji c ∨ c ∈ Spec.keyboardMarks := by
            intro c hc
            rcases q3 c hc with h | h
            · rcases hall c h with h | h | h
              · exact Or.inl h
              · exact absurd (q5.1 ⟨c, hc, h⟩) hf
              · exact Or.inr h
            · left
              simp only [List.mem_cons, List.not_mem_nil, or_false] at h
              rcases h with rfl | rfl | rfl | rfl | rfl <;> decide
          refine ⟨q.map unmark, ?_⟩
          have hcl : (is_romaji (q.map unmark) || is_mixed (q.map unmark)) = true := by
            rw [Bool.or_eq_true, romajiText_iff]
            left
            refine ⟨?_, ?_⟩
            · intro e
              have : q = [] := by simpa using e
              subst this
              obtain ⟨⟨k, hk, _⟩, _⟩ := hmix
              have := congrArg List.length q1
              rw [kana_nil] at this
              have : t = [] := by simpa using this.symm
              rw [this] at hk
              cases hk
            · intro c hc
              obtain ⟨d, hd, rfl⟩ := List.mem_map.1 hc
              rcases qr d hd with h | h
              · rw [unmark_romaji h]; exact h
              · exact unmark_keyboard h
          have uset : ∀ c ∈ q.map unmark, Settled std c := by
            intro c hc
            obtain ⟨d, hd, rfl⟩ := List.mem_map.1 hc
            exact settled_unmark hstd (qset d hd)
          unfold kataP
          rw [if_neg hp, if_pos hcl, toLowercase_id uset, kana_unmark, q1, hfix]
    · refine ⟨t, ?_⟩
      have hcl : ¬ (is_romaji t || is_mixed t) = true := by
        rw [Bool.or_eq_true, romajiText_iff, mixedText_iff]; exact hc
      unfold kataP
      rw [if_neg hp, if_neg hcl, hfix]

/-- `漢nッヤ` is no result, `。nッヤ` is the result for `.nyya` -/
example : (¬ ∃ s, to_katakana_with_opt modernStd s {} = .ok "漢nッヤ".toList) ∧
    to_katakana_with_opt modernStd ".nyya".toList {} = .ok "。nッヤ".toList ∧
    to_katakana_with_opt modernStd "漢nyyaカ".toList {} = .ok "漢nッヤカ".toList := by
  refine ⟨?_, by decide +kernel, by decide +kernel⟩
  rw [C118_katakana modernStd_lawful]
  rintro ⟨_, h⟩
  rcases h with h | h | ⟨_, _, h | h | h⟩
  · cases h
  · exact h.2 ⟨⟨'ッ', by decide, by decide⟩, 'n', by decide, by decide⟩
  · cases h
  · obtain ⟨a, k, b, e, hk, f1, f2, f3⟩ := h
    match a, e with
    | [], e =>
      have : '漢' = k := (List.cons.inj e).1
      subst this; exact absurd hk (by decide)
    | [_], e =>
      have : 'n' = k := (List.cons.inj (List.cons.inj e).2).1
      subst this; exact absurd hk (by decide)
    | [x, y], e =>
      have : 'n' = y := (List.cons.inj (List.cons.inj e).2).1
      subst this; exact f1 ⟨[x], rfl⟩
    | [x, y, z], e =>
      have h1 : 'n' = y := (List.cons.inj (List.cons.inj e).2).1
      have h2 : 'ッ' = z := (List.cons.inj (List.cons.inj (List.cons.inj e).2).2).1
      subst h1 h2; exact f3 ⟨[x], rfl⟩
    | x :: y :: z :: u :: v, e =>
      have := congrArg List.length e
      simp at this
  · have := h '漢' (by decide)
    revert this
    decide

/-! ## `to_hiragana` -/

theorem lower_punct {std : Std} (hstd : std.Lawful) {c : Char} (h : Spec.EnglishPunct c) : Settled std c := by
  unfold Spec.EnglishPunct Spec.In at h
  simp only [List.mem_cons, List.not_mem_nil, or_false, char_eq_iff, Char.reduceToNat] at h
  by_cases hc : c.toNat < 0x80
  · refine ⟨?_, ?_⟩
    · rw [hstd.lowerChar_ascii c hc]
      congr 1
      apply char_ext
      rw [toAsciiLowercase_toNat, if_neg (by omega)]
    · rintro rfl; exact absurd hc (by decide)
  · apply settled_uncased hstd
    unfold Uncased
    omega

/-- a mark of the keyboard or a curly quote is copied or gives a mark, ー or ・ -/
theorem kana_punct {m : Mode} {c : Char} (h : Spec.EnglishPunct c) (t : Str) :
    ∃ d, (kana m (c :: t)).head? = some d ∧ (d = c ∨ Spec.Kana d ∨ d ∈ Spec.keyboardMarks ∨ d ∈ Spec.quoteMarks) := by
  obtain ⟨n, k, hst⟩ := exists_stops (tree m) (c :: t)
  cases ho : n.output with
  | none => exact ⟨c, by rw [kana_miss hst ho]; rfl, Or.inl rfl⟩
  | some out =>
    have hk := stops_pos hst ho
    obtain ⟨j, rfl⟩ : ∃ j, k = j + 1 := ⟨k - 1, by omega⟩
    have hlow : toAsciiLowercase c = c := by
      unfold Spec.EnglishPunct Spec.In at h
      simp only [List.mem_cons, List.not_mem_nil, or_false, char_eq_iff, Char.reduceToNat] at h
      apply char_ext
      rw [toAsciiLowercase_toNat, if_neg (by omega)]
    have hnl : ¬ (0x61 ≤ c.toNat ∧ c.toNat ≤ 0x7a) := by
      unfold Spec.EnglishPunct Spec.In at h
      simp only [List.mem_cons, List.not_mem_nil, or_false, char_eq_iff, Char.reduceToNat] at h
      omega
    have hall : ([Mode.normal, .obsolete, .ime].all fun m => (tree m).paths.all fun x =>
        match x.1, x.2.output with
        | d :: _, some out => (decide (0x61 ≤ d.toNat ∧ d.toNat ≤ 0x7a)) ||
          out.all fun c => decide (Spec.Kana c) || decide (c ∈ Spec.keyboardMarks) || decide (c ∈ Spec.quoteMarks)
        | _, _ => true) = true := by decide +kernel
    have := walk_check (List.all_eq_true.1 hall m (by cases m <;> simp)) hst.walk
    have hne := (walk_output hst.walk ho).1
    simp only [List.take_succ_cons, low, List.map_cons, ho, hlow, hnl, decide_false, Bool.false_or] at this
    rw [kana_hit hst ho]
    cases out with
    | nil => exact absurd rfl hne
    | cons d out =>
      have hd := List.all_eq_true.1 this d List.mem_cons_self
      simp only [Bool.or_eq_true, decide_eq_true_iff] at hd
      unfold styled
      split
      · refine ⟨h2kP d, rfl, ?_⟩
        rcases hd with (hd | hd) | hd
        · exact Or.inr (Or.inl (kana_h2kP hd))
        · rw [mark_h2kP hd]; exact Or.inr (Or.inr (Or.inl hd))
        · have hq : (Spec.quoteMarks.all fun c => decide (h2kP c = c)) = true := by decide
          rw [of_decide_eq_true (List.all_eq_true.1 hq d hd)]
          exact Or.inr (Or.inr (Or.inr hd))
      · refine ⟨d, rfl, ?_⟩
        rcases hd with (hd | hd) | hd
        · exact Or.inr (Or.inl hd)
        · exact Or.inr (Or.inr (Or.inl hd))
        · exact Or.inr (Or.inr (Or.inr hd))

theorem unmark_punct {c : Char} (h : Spec.EnglishPunct c ∨ c ∈ Spec.keyboardMarks ∨ c ∈ Spec.quoteMarks) :
    Spec.EnglishPunct (unmark c) := by
  rcases h with h | h | h
  · rcases unmark_cases c with e | hm
    · rw [e]; exact h
    · have hge := mark_ge hm
      unfold Spec.EnglishPunct Spec.In at h
      simp only [List.mem_cons, List.not_mem_nil, or_false, char_eq_iff, Char.reduceToNat] at h
      omega
  · have hall : (Spec.keyboardMarks.all fun x => decide (Spec.EnglishPunct (unmark x))) = true := by decide
    exact of_decide_eq_true (List.all_eq_true.1 hall _ h)
  · have hall : (Spec.quoteMarks.all fun x => decide (Spec.EnglishPunct (unmark x))) = true := by decide
    exact of_decide_eq_true (List.all_eq_true.1 hall _ h)

/-- **C118** Exactly which texts without katakana other than ー ・ ヵ ヶ are results of `to_hiragana`, for every option. -/
theorem C118_hiragana {std : Std} (hstd : std.Lawful) (t : Str) (o : Options)
    (ht : ∀ c ∈ t, Spec.Katakana c → c ∈ ['ー', '・', 'ヵ', 'ヶ']) :
    (∃ s, to_hiragana_with_opt std s o = .ok t) ↔
      (o.pass_romaji = true ∨
        (¬ Spec.RomajiText t ∧ ¬ Spec.MixedText t ∧ ∀ c, t.head? = some c → ¬ Spec.EnglishPunct c) ∨
        (std.toLowercase t = t ∧ Spec.KanaResult (o.imemode && !o.use_obsolete_kana) t ∧
          ((o.imemode && !o.use_obsolete_kana) = true ∨ Spec.FreeKana t ∨ Spec.AllTyped t ∨ Spec.PunctFirst t))) := by
  have e0 : (∃ s, to_hiragana_with_opt std s o = .ok t) ↔ ∃ s, hiraP std s o = t := by
    constructor
    · rintro ⟨s, h⟩
      rw [to_hiragana_eq hstd] at h
      exact ⟨s, Except.ok.inj h⟩
    · rintro ⟨s, h⟩
      exact ⟨s, by rw [to_hiragana_eq hstd, h]⟩
  rw [e0, ← ime_of_mode, decide_eq_true_iff]
  have fixed : ∀ q : Str, FewKatakana q → k2hP std false none q = q := by
    intro q hq
    have := C23_unchanged hstd q false hq
    rw [k2h_eq hstd] at this
    exact Except.ok.inj this
  constructor
  · rintro ⟨s, rfl⟩
    by_cases hp : o.pass_romaji = true
    · exact Or.inl hp
    right
    have hkana : ∀ u, hiraP std s o = kana (modeOf o) (std.toLowercase u) →
        (modeOf o ≠ .ime → (∃ k ∈ u, Spec.Kana k) ∨ Spec.RomajiText u ∨ ∃ c, u.head? = some c ∧ Spec.EnglishPunct c) →
        std.toLowercase (hiraP std s o) = hiraP std s o ∧ Spec.KanaResult (decide (modeOf o = .ime)) (hiraP std s o) ∧
          (modeOf o = .ime ∨ Spec.FreeKana (hiraP std s o) ∨ Spec.AllTyped (hiraP std s o) ∨ Spec.PunctFirst (hiraP std s o)) := by
      intro u e hu
      rw [e]
      refine ⟨?_, kanaResult_kana _ _, ?_⟩
      · apply toLowercase_id
        exact kana_settled hstd _ _ (fun c hc => lower_settled hstd hc)
      · by_cases hi : modeOf o = .ime
        · exact Or.inl hi
        right
        rcases hu hi with ⟨k, hk, hkk⟩ | hr | ⟨c, hc, hcp⟩
        · exact Or.inl (free_of_kana hi (mem_lowerFrom hstd (kana_uncased hkk) u hk []) hkk).1
        · exact Or.inr (Or.inl (typed_of_romaji _ (lower_romaji hstd hr.2)))
        · cases u with
          | nil => cases hc
          | cons c' u =>
            cases hc
            have hs := lower_punct hstd hcp
            have el : ∃ v, std.toLowercase (c :: u) = c :: v := by
              refine ⟨std.lowerFrom [c] u, ?_⟩
              unfold Std.toLowercase
              rw [Std.lowerFrom, if_neg hs.2, hs.1]
              rfl
            obtain ⟨v, ev⟩ := el
            rw [ev]
            obtain ⟨d, hd, hx⟩ := kana_punct (m := modeOf o) hcp v
            rcases hx with rfl | hk | hx
            · exact Or.inr (Or.inr ⟨d, hd, Or.inl hcp⟩)
            · left
              cases hkv : kana (modeOf o) (c :: v) with
              | nil => rw [hkv] at hd; cases hd
              | cons d' w =>
                rw [hkv] at hd
                cases hd
                exact ⟨[], d, w, rfl, hk, by simp, by simp, by simp⟩
            · exact Or.inr (Or.inr ⟨d, hd, Or.inr hx⟩)
    by_cases hm : is_mixed s = true
    · right
      refine hkana (k2hP std false none s) (by unfold hiraP; rw [if_neg hp, if_pos hm]) ?_
      intro _
      left
      apply Classical.byContradiction
      intro hno
      have hno : ∀ c ∈ k2hP std false none s, ¬ Spec.Kana c := fun c hc hk => hno ⟨c, hc, hk⟩
      rw [k2hP_result_no_kana std false s hno] at hno
      obtain ⟨⟨k, hk, hkk⟩, _⟩ := mixedText_iff.1 hm
      exact hno k hk hkk
    · by_cases hr : (is_romaji s || ((s.head?).map is_char_english_punctuation).getD false) = true
      · right
        refine hkana s (by unfold hiraP; rw [if_neg hp, if_neg hm, if_pos hr]) ?_
        intro _
        right
        rw [Bool.or_eq_true, romajiText_iff, head_punct_iff] at hr
        exact hr
      · left
        have hsh := hiraP_shifted hstd hp hm hr (fixed _ ht)
        have e : hiraP std s o = k2hP std false none s := by
          unfold hiraP; rw [if_neg hp, if_neg hm, if_neg hr]
        rw [Bool.or_eq_true, not_or] at hr
        refine ⟨?_, ?_, ?_⟩
        · rw [← romajiText_iff]
          intro hx
          have : s = hiraP std s o := by
            rw [e]
            exact (k2hP_result_no_kana std false s (by rw [← e]; exact romaji_not_kana hx)).symm
          rw [← this] at hx
          exact hr.1 hx
        · rw [← mixedText_iff, hsh.1]; decide
        · rw [e]
          intro d hd hpd
          cases s with
          | nil => cases hd
          | cons c s =>
            obtain ⟨d', l, h1, h2⟩ := k2hP_head std false c s
            rw [h1] at hd
            cases hd
            rcases h2 with rfl | h2
            · exact hr.2 (head_punct_iff.2 ⟨d, rfl, hpd⟩)
            · exact punct_not_kana hpd h2
  · intro h
    have hfix := fixed t ht
    by_cases hp : o.pass_romaji = true
    · exact ⟨t, by unfold hiraP; rw [if_pos hp, hfix]⟩
    have h := h.resolve_left hp
    by_cases hb : ¬ Spec.RomajiText t ∧ ¬ Spec.MixedText t ∧ ∀ c, t.head? = some c → ¬ Spec.EnglishPunct c
    · refine ⟨t, ?_⟩
      have hcl : ¬ (is_romaji t || ((t.head?).map is_char_english_punctuation).getD false) = true := by
        rw [Bool.or_eq_true, romajiText_iff, head_punct_iff]
        rintro (h | ⟨c, hc, hx⟩)
        · exact hb.1 h
        · exact hb.2.2 c hc hx
      unfold hiraP
      rw [if_neg hp, if_neg (fun h => hb.2.1 (mixedText_iff.1 h)), if_neg hcl, hfix]
    · obtain ⟨hlow, hres, hx⟩ := h.resolve_left hb
      have hset := settled_of_lower hstd hlow
      by_cases hmix : Spec.MixedText t
      · have hmx := mixedText_iff.2 hmix
        by_cases hi : modeOf o = .ime
        · refine ⟨t, ?_⟩
          unfold hiraP
          rw [if_neg hp, if_pos hmx, hfix, hlow, leftAlone_of_result hres (Or.inl hi)]
        · have hx := hx.resolve_left hi
          rw [decide_eq_false hi, kanaResult_iff] at hres
          obtain ⟨q, _, q2, q3, q4, q5, q6⟩ := exists_low hi t hres (settled_n hstd hset)
          have q2 := q2 (fun hm => absurd (ht _ hm (by decide)) (by decide))
          have qset : ∀ c ∈ q, Settled std c := by
            intro c hc
            rcases q3 c hc with h | h
            · exact hset c h
            · exact settled_y hstd h
          have hy : ∀ c ∈ ['y', 'a', 'i', 'u', 'o'], Spec.Romaji c ∧ ¬ Spec.Katakana c := by decide
          by_cases hf : Spec.FreeKana t
          · refine ⟨q, ?_⟩
            have hcl : is_mixed q = true := by
              rw [mixedText_iff]
              obtain ⟨_, r, hr, hrr⟩ := hmix
              refine ⟨q5.2 hf, r, q4 r hr ?_, hrr⟩
              intro hk
              have := kana_ge hk
              rw [specRomaji_iff] at hrr
              simp only [List.mem_cons, List.not_mem_nil, or_false] at hrr
              omega
            have qfew : FewKatakana q := by
              intro c hc hk
              rcases q3 c hc with h | h
              · exact ht c h hk
              · exact absurd hk (hy c h).2
            unfold hiraP
            rw [if_neg hp, if_pos hcl, fixed q qfew, toLowercase_id qset, q2]
          · have hx := hx.resolve_left hf
            have qk : ∀ c ∈ q, ¬ Spec.Kana c := fun c hc hk => hf (q5.1 ⟨c, hc, hk⟩)
            refine ⟨q.map unmark, ?_⟩
            have hnm : ¬ is_mixed (q.map unmark) = true := by
              rw [mixedText_iff]
              rintro ⟨⟨c, hc, hk⟩, _⟩
              obtain ⟨d, hd, rfl⟩ := List.mem_map.1 hc
              exact unmark_kana (qk d hd) hk
            have hcl : (is_romaji (q.map unmark) ||
                (((q.map unmark).head?).map is_char_english_punctuation).getD false) = true := by
              rw [Bool.or_eq_true, romajiText_iff, head_punct_iff]
              rcases hx with hall | ⟨c, hc, hcp⟩
              · left
                refine ⟨?_, ?_⟩
                · intro e
                  have : q = [] := by simpa using e
                  subst this
                  rw [kana_nil] at q2
                  obtain ⟨⟨k, hk, _⟩, _⟩ := hmix
                  rw [← q2] at hk
                  cases hk
                · intro c hc
                  obtain ⟨d, hd, rfl⟩ := List.mem_map.1 hc
                  rcases q3 d hd with h | h
                  · rcases hall d h with h | h | h
                    · rw [unmark_romaji h]; exact h
                    · exact absurd h (qk d hd)
                    · exact unmark_keyboard h
                  · rw [unmark_romaji (hy d h).1]; exact (hy d h).1
              · right
                refine ⟨unmark c, ?_, unmark_punct hcp⟩
                rw [List.head?_map, q6, hc]; rfl
            have uset : ∀ c ∈ q.map unmark, Settled std c := by
              intro c hc
              obtain ⟨d, hd, rfl⟩ := List.mem_map.1 hc
              exact settled_unmark hstd (qset d hd)
            unfold hiraP
            rw [if_neg hp, if_neg hnm, if_pos hcl, toLowercase_id uset, kana_unmark, q2]
      · refine ⟨t, ?_⟩
        have hcl : (is_romaji t || ((t.head?).map is_char_english_punctuation).getD false) = true := by
          rw [Bool.or_eq_true, romajiText_iff, head_punct_iff]
          apply Classical.byContradiction
          intro hno
          rw [not_or] at hno
          exact hb ⟨hno.1, hmix, fun c hc hp => hno.2 ⟨c, hc, hp⟩⟩
        unfold hiraP
        rw [if_neg hp, if_neg (fun h => hmix (mixedText_iff.1 h)), if_pos hcl, hlow,
          leftAlone_of_result hres (Or.inr hmix)]

/-- `'漢nっや` and `。漢nっや` are results of `to_hiragana` -/
example : (∀ c ∈ "'漢nっや".toList, Spec.Katakana c → c ∈ ['ー', '・', 'ヵ', 'ヶ']) ∧
    to_hiragana_with_opt modernStd "'漢nyya".toList {} = .ok "'漢nっや".toList ∧
    to_hiragana_with_opt modernStd ".漢nyya".toList {} = .ok "。漢nっや".toList ∧
    to_hiragana_with_opt modernStd "漢nyya".toList {} = .ok "漢nyya".toList := by decide +kernel

/-! ### results with other katakana -/

/-- such a result stems from a text without romaji that begins with a curly quote -/
theorem quoted_source {std : Std} (hstd : std.Lawful) {s t : Str} {o : Options}
    (h : to_hiragana_with_opt std s o = .ok t) (hk : ∃ c ∈ t, Spec.Katakana c ∧ c ∉ ['ー', '・', 'ヵ', 'ヶ']) :
    o.pass_romaji = false ∧ (∀ c ∈ s, ¬ Spec.Romaji c) ∧ t = kana (modeOf o) (std.toLowercase s) ∧
      ∃ c, t.head? = some c ∧ c ∈ Spec.quoteMarks := by
  have hx := (C43_exact hstd s t o h).2
  obtain ⟨k, hkt, hkk, hkn⟩ := hk
  have hno : ¬ (o.pass_romaji = true ∨ (∃ c ∈ s, Spec.Romaji c) ∨ (∀ c, s.head? = some c → ¬ Spec.EnglishPunct c) ∨
        (∀ c ∈ s, Spec.Katakana c → c ∈ ['ー', '・', 'ヵ', 'ヶ'])) := fun hh => hkn (hx hh k hkt hkk)
  simp only [not_or] at hno
  obtain ⟨n1, n2, n3, _⟩ := hno
  have hnr : ∀ c ∈ s, ¬ Spec.Romaji c := fun c hc hr => n2 ⟨c, hc, hr⟩
  have hhead : ∃ c, s.head? = some c ∧ Spec.EnglishPunct c := by
    apply Classical.byContradiction
    intro hno
    exact n3 fun c hc hp => hno ⟨c, hc, hp⟩
  rw [to_hiragana_eq hstd] at h
  have h := Except.ok.inj h
  have hm : ¬ is_mixed s = true := by
    rw [mixedText_iff]
    exact fun h => n2 h.2
  have e : hiraP std s o = kana (modeOf o) (std.toLowercase s) := by
    unfold hiraP
    rw [if_neg n1, if_neg hm, if_pos]
    rw [Bool.or_eq_true, head_punct_iff]
    exact Or.inr hhead
  refine ⟨by simpa using n1, hnr, by rw [← h, e], ?_⟩
  obtain ⟨c, hc, hcp⟩ := hhead
  cases s with
  | nil => cases hc
  | cons c' s =>
    cases hc
    have hq := (englishPunct_romaji hcp).resolve_left (hnr c List.mem_cons_self)
    have hs := lower_punct hstd hcp
    have ev : std.toLowercase (c :: s) = c :: std.lowerFrom [c] s := by
      unfold Std.toLowercase
      rw [Std.lowerFrom, if_neg hs.2, hs.1]
      rfl
    obtain ⟨q, hqm, hqq⟩ : ∃ q, (q, c) ∈ markKeys ∧ q ∈ Spec.quoteMarks := by
      have hall : (['‘', '’', '“', '”'].all fun c => markKeys.any fun x => decide (x.2 = c ∧ x.1 ∈ Spec.quoteMarks)) = true := by
        decide
      obtain ⟨⟨q, d⟩, hqd, hd⟩ := List.any_eq_true.1 (List.all_eq_true.1 hall c hq)
      rw [decide_eq_true_iff] at hd
      obtain ⟨rfl, h2⟩ := hd
      exact ⟨q, hqd, h2⟩
    refine ⟨q, ?_, hqq⟩
    rw [← h, e, ev, kana_markKey _ hqm]
    rfl

theorem quoted_result {std : Std} (hstd : std.Lawful) {q : Char} (hq : q ∈ Spec.quoteMarks) {t u : Str} (o : Options)
    (hp : o.pass_romaji = false) (hu : ∀ c ∈ u, ¬ Spec.Romaji c) (hl : ∀ pre, std.lowerFrom pre u = t)
    (ht : ∀ c ∈ t, c ∉ ['‘', '’', '“', '”']) (hr : ∀ c ∈ t, Spec.Romaji c → c = 'k') :
    to_hiragana_with_opt std (unmark q :: u) o = .ok (q :: t) := by
  have hpn : ¬ o.pass_romaji = true := by rw [hp]; decide
  have hpq := unmark_punct (Or.inr (Or.inr hq))
  have hnr : ¬ Spec.Romaji (unmark q) := by
    have hall : (Spec.quoteMarks.all fun x => decide (¬ Spec.Romaji (unmark x))) = true := by decide
    exact of_decide_eq_true (List.all_eq_true.1 hall _ hq)
  have hmk : (q, unmark q) ∈ markKeys := by
    have hall : (Spec.quoteMarks.all fun x => decide ((x, unmark x) ∈ markKeys)) = true := by decide
    exact of_decide_eq_true (List.all_eq_true.1 hall _ hq)
  have hs := lower_punct hstd hpq
  have ev : std.toLowercase (unmark q :: u) = unmark q :: t := by
    unfold Std.toLowercase
    rw [Std.lowerFrom, if_neg hs.2, hs.1, hl]
    rfl
  have hm : ¬ is_mixed (unmark q :: u) = true := by
    rw [mixedText_iff]
    rintro ⟨_, c, hc, hcr⟩
    rcases List.mem_cons.1 hc with rfl | hc
    · exact hnr hcr
    · exact hu c hc hcr
  have hlow : ∀ c ∈ low t, c = 'k' ∨ (0x80 ≤ c.toNat ∧ c ∉ ['‘', '’', '“', '”']) := by
    intro c hc
    unfold low at hc
    obtain ⟨d, hd, rfl⟩ := List.mem_map.1 hc
    by_cases hdr : Spec.Romaji d
    · left; rw [hr d hd hdr]; decide
    · right
      have hge : 0x80 ≤ d.toNat := by
        apply Classical.byContradiction
        intro hlt
        exact hdr (specRomaji_iff.2 (Or.inl (by omega)))
      have : toAsciiLowercase d = d := by
        apply char_ext
        rw [toAsciiLowercase_toNat, if_neg (by omega)]
      rw [this]
      exact ⟨hge, ht d hd⟩
  have hno : ∀ x : Char, x.toNat < 0x80 → x ≠ 'k' → x ∉ low t := by
    intro x hx hk hm
    rcases hlow x hm with h | h
    · exact hk h
    · omega
  have hk : kana (modeOf o) t = t := by
    rw [leftAlone_iff]
    unfold Spec.LeftAlone
    rw [asciiLower_eq]
    refine ⟨?_, ?_, ?_⟩
    · intro c hc hcc
      have hall : (Spec.alwaysConverted.all fun c => decide (c ≠ 'k' ∧ (c.toNat < 0x80 ∨ c ∈ ['‘', '’', '“', '”']))) = true := by
        decide
      have := of_decide_eq_true (List.all_eq_true.1 hall c hcc)
      rcases hlow c hc with h | h
      · exact this.1 h
      · rcases this.2 with h' | h'
        · omega
        · exact h.2 h'
    · rintro ⟨a, b, e⟩
      exact hno 'n' (by decide) (by decide) (by show _ ∈ List.map _ _; rw [e]; simp)
    · split
      · rintro d _ ⟨a, b, e⟩
        exact hno 'n' (by decide) (by decide) (by show _ ∈ List.map _ _; rw [e]; simp)
      · intro a b e
        exact absurd (by show _ ∈ List.map _ _; rw [e]; simp) (hno 'n' (by decide) (by decide))
  rw [to_hiragana_eq hstd]
  unfold hiraP
  rw [if_neg hpn, if_neg hm, if_pos, ev, kana_markKey _ hmk, hk]
  rw [Bool.or_eq_true, head_punct_iff]
  exact Or.inr ⟨_, rfl, hpq⟩

theorem quoted_no_curly {m : Mode} {s : Str} : ∀ c ∈ kana m s, c ∉ ['‘', '’', '“', '”'] := by
  intro c hc hq
  have := (kanaResult_kana m s).1 (Spec.asciiLower c) (List.mem_map_of_mem hc)
  apply this
  simp only [List.mem_cons, List.not_mem_nil, or_false] at hq
  rcases hq with rfl | rfl | rfl | rfl <;> decide

/-- **C118** A text without romaji that has other katakana is a result of `to_hiragana` exactly if it begins with 「 」 『
or 』, has only small letters and no curly quote — and never with `pass_romaji`. -/
theorem C118_hiragana_quoted {std : Std} (hstd : std.Lawful) (t : Str) (o : Options)
    (hk : ∃ c ∈ t, Spec.Katakana c ∧ c ∉ ['ー', '・', 'ヵ', 'ヶ']) (hr : ∀ c ∈ t, ¬ Spec.Romaji c) :
    (∃ s, to_hiragana_with_opt std s o = .ok t) ↔ o.pass_romaji = false ∧
      (∃ c, t.head? = some c ∧ c ∈ Spec.quoteMarks) ∧ std.toLowercase t = t ∧ ∀ c ∈ t, c ∉ ['‘', '’', '“', '”'] := by
  constructor
  · rintro ⟨s, h⟩
    obtain ⟨h1, h2, h3, h4⟩ := quoted_source hstd h hk
    refine ⟨h1, h4, ?_, ?_⟩
    · apply toLowercase_id
      rw [h3]
      exact kana_settled hstd _ _ (fun c hc => lower_settled hstd hc)
    · rw [h3]; exact quoted_no_curly
  · rintro ⟨h1, ⟨c, hc, hq⟩, h3, h4⟩
    cases t with
    | nil => cases hc
    | cons c' t =>
      cases hc
      have hset := settled_of_lower hstd h3
      refine ⟨unmark c :: t, quoted_result hstd hq o h1 (fun d hd => hr d (List.mem_cons_of_mem _ hd)) ?_
        (fun d hd => h4 d (List.mem_cons_of_mem _ hd)) (fun d hd hx => absurd hx (hr d (List.mem_cons_of_mem _ hd)))⟩
      exact lowerFrom_id t (fun d hd => hset d (List.mem_cons_of_mem _ hd))

example : to_hiragana_with_opt modernStd "‘カナ’".toList {} = .ok "「カナ」".toList ∧
    ∃ c ∈ "「カナ」".toList, Spec.Katakana c ∧ c ∉ ['ー', '・', 'ヵ', 'ヶ'] := by decide +kernel

/-- the code points of romaji -/
def romajiNat (n : Nat) : Bool :=
  Nat.blt n 0x80 || [0x100, 0x101, 0x112, 0x113, 0x12a, 0x12b, 0x14c, 0x14d, 0x16a, 0x16b].contains n

theorem romajiNat_iff (c : Char) : romajiNat c.toNat = true ↔ Spec.Romaji c := by
  unfold romajiNat
  rw [specRomaji_iff, Bool.or_eq_true, Nat.blt_eq, List.contains_iff_mem]

theorem lower_to_romaji : (Unicode.lowerTable.all fun x => romajiNat x.1 || x.2.all fun n =>
    Nat.beq n 0x69 || Nat.beq n 0x6b || !romajiNat (Char.ofNat n).toNat) = true := by decide +kernel

/-- Only `k` (from the Kelvin sign) and `i` (from İ) are romaji in the lower case of another character. -/
theorem rust_romaji {c d : Char} (hc : ¬ Spec.Romaji c) (hd : d ∈ rustStd.lowerChar c) (hr : Spec.Romaji d) :
    d = 'i' ∨ d = 'k' := by
  have hd : d ∈ uniMap Unicode.lowerTable c := hd
  rcases uniMap_cases Unicode.lowerTable c with ⟨_, h2⟩ | ⟨l, hl, _, h2⟩
  · rw [h2, List.mem_singleton] at hd
    rw [hd] at hr
    exact absurd hr hc
  · rw [h2, List.mem_map] at hd
    obtain ⟨n, hn, rfl⟩ := hd
    have := List.all_eq_true.1 lower_to_romaji _ hl
    rw [Bool.or_eq_true, romajiNat_iff] at this
    have := List.all_eq_true.1 (this.resolve_left hc) n hn
    simp only [Bool.or_eq_true, Bool.not_eq_true', Nat.beq_eq] at this
    rcases this with (h | h) | h
    · left; rw [h]
    · right; rw [h]
    · rw [← romajiNat_iff, h] at hr
      cases hr

/-- **C118** With the case mappings of current Rust: a text that has other katakana is a result of `to_hiragana` exactly
if it begins with 「 」 『 or 』, has only small letters, no curly quote and no romaji but `k` (which the Kelvin sign gives)
— and never with `pass_romaji`. -/
theorem C118_hiragana_rust (t : Str) (o : Options)
    (hk : ∃ c ∈ t, Spec.Katakana c ∧ c ∉ ['ー', '・', 'ヵ', 'ヶ']) :
    (∃ s, to_hiragana_with_opt rustStd s o = .ok t) ↔ o.pass_romaji = false ∧
      (∃ c, t.head? = some c ∧ c ∈ Spec.quoteMarks) ∧ rustStd.toLowercase t = t ∧
      (∀ c ∈ t, c ∉ ['‘', '’', '“', '”']) ∧ ∀ c ∈ t, Spec.Romaji c → c = 'k' := by
  have hstd := rustStd_lawful
  constructor
  · rintro ⟨s, h⟩
    obtain ⟨h1, h2, h3, h4⟩ := quoted_source hstd h hk
    refine ⟨h1, h4, ?_, ?_, ?_⟩
    · apply toLowercase_id
      rw [h3]
      exact kana_settled hstd _ _ (fun c hc => lower_settled hstd hc)
    · rw [h3]; exact quoted_no_curly
    · rw [h3]
      intro c hc hr
      have hin : c ∈ rustStd.toLowercase s := by
        rcases mem_kana_cases _ _ c hc with h | ⟨s1, x, s2, n, out, _, _, hw, ho, hco⟩
        · exact h
        · have hge := styled_ge hw ho x c hco
          rw [specRomaji_iff] at hr
          simp only [List.mem_cons, List.not_mem_nil, or_false] at hr
          omega
      rcases lowerFrom_mem s hin with ⟨d, hd, hcd⟩ | rfl | rfl
      · rcases rust_romaji (h2 d hd) hcd hr with rfl | rfl
        · exact absurd (by decide) ((kanaResult_kana (modeOf o) _).1 (Spec.asciiLower 'i') (List.mem_map_of_mem hc))
        · rfl
      · exact absurd hr (by decide)
      · exact absurd hr (by decide)
  · rintro ⟨h1, ⟨c, hc, hq⟩, h3, h4, h5⟩
    cases t with
    | nil => cases hc
    | cons c' t =>
      cases hc
      have hset := settled_of_lower hstd h3
      refine ⟨unmark c :: t.map fun d => if d = 'k' then '\u212a' else d, quoted_result hstd hq o h1 ?_ ?_
        (fun d hd => h4 d (List.mem_cons_of_mem _ hd)) (fun d hd => h5 d (List.mem_cons_of_mem _ hd))⟩
      · intro d hd hr
        obtain ⟨e, he, rfl⟩ := List.mem_map.1 hd
        by_cases hk : e = 'k'
        · rw [if_pos hk] at hr; exact absurd hr (by decide)
        · rw [if_neg hk] at hr
          exact hk (h5 e (List.mem_cons_of_mem _ he) hr)
      · have hset' : ∀ d ∈ t, Settled rustStd d := fun d hd => hset d (List.mem_cons_of_mem _ hd)
        clear h3 h4 h5 hset hk
        induction t with
        | nil => intro pre; rfl
        | cons d t ih =>
          intro pre
          have hd := hset' d List.mem_cons_self
          have ih := ih (fun e he => hset' e (List.mem_cons_of_mem _ he))
          rw [List.map_cons, Std.lowerFrom]
          by_cases hk : d = 'k'
          · subst hk
            rw [if_pos rfl, if_neg (by decide), ih]
            have : rustStd.lowerChar '\u212a' = ['k'] := by decide +kernel
            rw [this]; rfl
          · rw [if_neg hk, if_neg hd.2, ih, hd.1]
            rfl

/-- the Kelvin sign -/
example : to_hiragana_with_opt rustStd "‘\u212aカ".toList {} = .ok "「kカ".toList := by decide +kernel

end WanaKana
