import Verif.Spec.KanaResult
import Verif.Props.LeftAlone
import Verif.Props.ToRomaji
/-! # C97: exactly which texts are results of `to_kana` -/

namespace WanaKana
open KNode

/-- what may follow an `n` in a result, outside IME mode -/
def OkAfterN (t : Str) : Prop := (∃ d, t.head? = some d ∧ toAsciiLowercase d = 'y') ∨ ∃ w ∈ Spec.tsuY, w <+: t

/-- the condition at one place of a result -/
structure Loc (P : Str → Prop) (c : Char) (t : Str) : Prop where
  sole : toAsciiLowercase c ∉ Spec.alwaysConverted
  xn : toAsciiLowercase c = 'x' → ∀ d, t.head? = some d → toAsciiLowercase d ≠ 'n'
  n : toAsciiLowercase c = 'n' → P t

/-- the condition at every place -/
def AllLoc (P : Str → Prop) : Str → Prop
  | [] => True
  | c :: t => Loc P c t ∧ AllLoc P t

/-- before `y` -/
def YNext (t : Str) : Prop := ∃ d, t.head? = some d ∧ toAsciiLowercase d = 'y'

theorem allLoc_split {P : Str → Prop} {a b : Str} (h : AllLoc P (a ++ b)) : AllLoc P b := by
  induction a with
  | nil => exact h
  | cons c a ih => exact ih h.2

theorem allLoc_iff (P : Str → Prop) (Q : Str → Prop) (hPQ : ∀ t, P t ↔ Q (low t)) (r : Str) :
    AllLoc P r ↔ (∀ c ∈ low r, c ∉ Spec.alwaysConverted) ∧ ¬ Spec.Occurs ['x', 'n'] (low r) ∧
      ∀ a b, low r = a ++ 'n' :: b → Q b := by
  constructor
  · intro h
    refine ⟨?_, ?_, ?_⟩
    · intro c hc
      obtain ⟨a, b, e⟩ := List.append_of_mem hc
      obtain ⟨a', b', rfl, _, e3⟩ := low_split e
      cases b' with
      | nil => cases e3
      | cons d t =>
        have := (allLoc_split h).1.sole
        rw [← (List.cons.inj e3).1]; exact this
    · rintro ⟨a, b, e⟩
      rw [List.append_assoc] at e
      obtain ⟨a', b', rfl, _, e3⟩ := low_split e
      cases b' with
      | nil => cases e3
      | cons d t =>
        have h1 := (List.cons.inj e3).1
        have h2 := (List.cons.inj e3).2
        cases t with
        | nil => cases h2
        | cons d' t => exact (allLoc_split h).1.xn h1 d' rfl (List.cons.inj h2).1
    · intro a b e
      obtain ⟨a', b', rfl, _, e3⟩ := low_split e
      cases b' with
      | nil => cases e3
      | cons d t =>
        have h1 := (allLoc_split h).1.n (List.cons.inj e3).1
        rw [hPQ] at h1
        have : low t = b := (List.cons.inj e3).2
        rw [← this]; exact h1
  · rintro ⟨h1, h2, h3⟩
    induction r with
    | nil => trivial
    | cons c r ih =>
      refine ⟨⟨h1 _ (by simp [low]), ?_, ?_⟩, ih ?_ ?_ ?_⟩
      · intro hc d hd hn
        cases r with
        | nil => cases hd
        | cons d' r =>
          cases hd
          exact h2 ⟨[], low r, by simp [low, hc, hn]⟩
      · intro hc
        rw [hPQ]
        exact h3 [] (low r) (by simp [low, hc])
      · intro d hd
        exact h1 d (List.mem_cons_of_mem _ hd)
      · rintro ⟨a, b, e⟩
        exact h2 ⟨toAsciiLowercase c :: a, b, by show _ :: low r = _; rw [e]; rfl⟩
      · intro a b e
        exact h3 (toAsciiLowercase c :: a) b (by show _ :: low r = _; rw [e]; rfl)

theorem head_low {t : Str} : YNext t ↔ (low t).head? = some 'y' := by
  cases t with
  | nil => simp [YNext, low]
  | cons d t => simp [YNext, low]

theorem tsuY_low {w : Str} (hw : w ∈ Spec.tsuY) (t : Str) : w <+: t ↔ w <+: low t := by
  have hid : ∀ c : Char, 0x80 ≤ c.toNat → ∀ d, toAsciiLowercase d = c ↔ d = c := by
    intro c hc d
    constructor
    · intro h; exact (by
        have e := congrArg Char.toNat h
        rw [toAsciiLowercase_toNat] at e
        split at e
        · omega
        · exact Char.ext (UInt32.toNat.inj e))
    · rintro rfl
      apply Char.ext; apply UInt32.toNat.inj
      show (toAsciiLowercase d).toNat = d.toNat
      rw [toAsciiLowercase_toNat, if_neg (by omega)]
  obtain ⟨x, y, rfl, hx, hy⟩ : ∃ x y, w = [x, y] ∧ 0x80 ≤ x.toNat ∧ 0x80 ≤ y.toNat := by
    have : (Spec.tsuY.all fun w => match w with
      | [x, y] => decide (0x80 ≤ x.toNat ∧ 0x80 ≤ y.toNat) | _ => false) = true := by decide
    have := List.all_eq_true.1 this w hw
    match w, this with
    | [x, y], h => exact ⟨x, y, rfl, (by simpa using h)⟩
  match t with
  | [] => simp [low]
  | [a] => simp [low, List.cons_prefix_cons]
  | a :: b :: t =>
    simp only [low, List.map_cons, List.cons_prefix_cons, List.nil_prefix, and_true]
    rw [eq_comm, ← hid x hx a, eq_comm (a := y) (b := b), ← hid y hy b]
    rw [eq_comm (a := x), eq_comm (a := y)]

theorem kanaResult_iff (r : Str) : Spec.KanaResult false r ↔ AllLoc OkAfterN r := by
  unfold Spec.KanaResult
  rw [asciiLower_eq, allLoc_iff OkAfterN (fun b => b.head? = some 'y' ∨ ∃ w ∈ Spec.tsuY, w <+: b)]
  · rfl
  · intro t
    unfold OkAfterN
    rw [← head_low]
    unfold YNext
    constructor
    · rintro (h | ⟨w, hw, h⟩)
      · exact Or.inl h
      · exact Or.inr ⟨w, hw, (tsuY_low hw t).1 h⟩
    · rintro (h | ⟨w, hw, h⟩)
      · exact Or.inl h
      · exact Or.inr ⟨w, hw, (tsuY_low hw t).2 h⟩

theorem leftAlone_loc {m : Mode} (hm : m ≠ .ime) (r : Str) : kana m r = r ↔ AllLoc YNext r := by
  rw [leftAlone_iff, allLoc_iff YNext (fun b => b.head? = some 'y') (fun t => head_low)]
  unfold Spec.LeftAlone
  rw [asciiLower_eq, if_neg (by simpa using hm)]

/-! ## results meet the condition -/

theorem not_misses_leaf {m : Mode} {p : Str} {n : KNode} (hw : (tree m).walk p = some n) (ho : n.output.isSome = true)
    (hl : n.transitions = []) {b t : Str} (e : low b = p ++ t) : ¬ Misses m b := by
  intro hm
  have hlen : p.length ≤ b.length := by
    have := congrArg List.length e
    simp [low] at this
    omega
  have hst : Stops (tree m) b n p.length := by
    refine ⟨hlen, ?_, ?_⟩
    · have : low (b.take p.length) = p := by
        unfold low at e ⊢
        rw [List.map_take, e, List.take_left]
      rw [this]; exact hw
    · intro c _
      unfold find_transition_node
      rw [hl]; rfl
  rw [hm n _ hst] at ho
  cases ho

theorem n_leaf {m : Mode} {v : Char} (hv : v ∈ ['a', 'i', 'u', 'e', 'o']) :
    (∃ n, (tree m).walk ['n', v] = some n ∧ n.output.isSome = true ∧ n.transitions = []) ∧
    (∃ n, (tree m).walk ['n', 'y', v] = some n ∧ n.output.isSome = true ∧ n.transitions = []) := by
  have h : ([Mode.normal, .obsolete, .ime].all fun m => ['a', 'i', 'u', 'e', 'o'].all fun v =>
      (match (tree m).walk ['n', v] with | none => false | some n => n.output.isSome && n.transitions.isEmpty) &&
      (match (tree m).walk ['n', 'y', v] with | none => false | some n => n.output.isSome && n.transitions.isEmpty)) =
      true := by decide +kernel
  have := List.all_eq_true.1 (List.all_eq_true.1 h m (by cases m <;> simp)) v hv
  rw [Bool.and_eq_true] at this
  constructor
  · have h1 := this.1
    cases hw : (tree m).walk ['n', v] with
    | none => rw [hw] at h1; cases h1
    | some n =>
      rw [hw] at h1
      simp only [Bool.and_eq_true, List.isEmpty_iff] at h1
      exact ⟨n, rfl, h1⟩
  · have h1 := this.2
    cases hw : (tree m).walk ['n', 'y', v] with
    | none => rw [hw] at h1; cases h1
    | some n =>
      rw [hw] at h1
      simp only [Bool.and_eq_true, List.isEmpty_iff] at h1
      exact ⟨n, rfl, h1⟩

/-- outside IME mode an `n` is left only before `y` -/
theorem misses_n {m : Mode} (hm : m ≠ .ime) {c : Char} {t : Str} (hmiss : Misses m (c :: t))
    (ec : toAsciiLowercase c = 'n') : YNext t := by
  obtain ⟨n, hn⟩ : ∃ n, (tree m).walk ['n'] = some n := by
    have : ((tree m).walk ['n']).isSome = true := by cases m <;> decide +kernel
    exact Option.isSome_iff_exists.1 this
  obtain ⟨ho, htr⟩ := (alone_facts hn).2.2 hm rfl
  cases hf : (t.head?.bind fun d => n.find_transition_node (toAsciiLowercase d)) with
  | none =>
    exfalso
    have hst : Stops (tree m) (c :: t) n 1 := by
      refine ⟨by simp, ?_, ?_⟩
      · simp only [List.take_succ_cons, List.take_zero, low, List.map_cons, List.map_nil, ec]; exact hn
      · intro d hd
        simp only [List.drop_succ_cons, List.drop_zero] at hd
        rw [hd] at hf
        exact hf
    rw [hmiss n 1 hst] at ho
    cases ho
  | some n' =>
    cases t with
    | nil => cases hf
    | cons d t =>
      have hf' : n.find_transition_node (toAsciiLowercase d) = some n' := hf
      unfold find_transition_node at hf'
      obtain ⟨x, hx, _⟩ := Option.map_eq_some_iff.1 hf'
      have hx1 := List.find?_some hx
      have hx2 := htr x (List.mem_of_find?_eq_some hx)
      rw [eq_of_beq hx1] at hx2
      have hcases : toAsciiLowercase d ∈ ['a', 'i', 'u', 'e', 'o'] ∨ toAsciiLowercase d = 'y' ∨
          toAsciiLowercase d = '\'' := by
        simp only [List.mem_cons, List.not_mem_nil, or_false] at hx2
        rcases hx2 with h | h | h | h | h | h | h <;> rw [h] <;> decide
      rcases hcases with h' | h' | h'
      · obtain ⟨n'', h1, h2, h3⟩ := (n_leaf (m := m) h').1
        exact absurd hmiss (not_misses_leaf h1 h2 h3 (t := low t) (by simp [low, ec]))
      · exact ⟨d, rfl, h'⟩
      · exact absurd hmiss (not_misses_sole (p := ['n', '\'']) (t := low t) (by simp [soleKeys]) (by simp [low, ec, h']))

/-- keys that begin with `y` -/
theorem keys_from_y {m : Mode} {p : Str} {n : KNode} (hw : (tree m).walk p = some n) {out : Str} (ho : n.output = some out)
    (hp : p.head? = some 'y') :
    (∃ v ∈ ['a', 'i', 'u', 'e', 'o'], p = ['y', v]) ∨
    ((∃ w ∈ Spec.tsuY, w <+: out) ∧ ∃ w ∈ Spec.tsuY, w <+: out.map h2kP) := by
  have h : ([Mode.normal, .obsolete, .ime].all fun m => (tree m).paths.all fun x =>
      match x.2.output with
      | none => true
      | some out => !decide (x.1.head? = some 'y') ||
        (['a', 'i', 'u', 'e', 'o'].any fun v => decide (x.1 = ['y', v])) ||
        ((Spec.tsuY.any fun w => w.isPrefixOf out) && Spec.tsuY.any fun w => w.isPrefixOf (out.map h2kP))) = true := by
    decide +kernel
  have := walk_check (List.all_eq_true.1 h m (by cases m <;> simp)) hw
  simp only [ho, hp, decide_true, Bool.not_true, Bool.false_or, Bool.or_eq_true, Bool.and_eq_true, List.any_eq_true,
    List.isPrefixOf_iff_prefix, decide_eq_true_iff] at this
  exact this

theorem loc_of_ge {P : Str → Prop} {c : Char} (h : 0x2100 ≤ c.toNat) (t : Str) : Loc P c t := by
  have e : toAsciiLowercase c = c := by
    apply Char.ext; apply UInt32.toNat.inj
    show (toAsciiLowercase c).toNat = c.toNat
    rw [toAsciiLowercase_toNat, if_neg (by omega)]
  refine ⟨?_, ?_, ?_⟩
  · rw [e]
    intro hc
    have : (Spec.alwaysConverted.all fun d => decide (d.toNat < 0x2100)) = true := by decide
    have := List.all_eq_true.1 this c hc
    rw [decide_eq_true_iff] at this
    omega
  · rw [e]; rintro rfl; exact absurd h (by decide)
  · rw [e]; rintro rfl; exact absurd h (by decide)

theorem allLoc_ge {P : Str → Prop} {a : Str} (h : ∀ c ∈ a, 0x2100 ≤ c.toNat) {t : Str} (ht : AllLoc P t) :
    AllLoc P (a ++ t) := by
  induction a with
  | nil => exact ht
  | cons c a ih => exact ⟨loc_of_ge (h c List.mem_cons_self) _, ih fun d hd => h d (List.mem_cons_of_mem _ hd)⟩

/-- the first character of the result: copied, or kana -/
theorem kana_head {m : Mode} {c : Char} {s : Str} {d : Char} (h : (kana m (c :: s)).head? = some d) :
    d = c ∨ 0x2100 ≤ d.toNat := by
  obtain ⟨n, k, hst⟩ := exists_stops (tree m) (c :: s)
  cases ho : n.output with
  | none => rw [kana_miss hst ho] at h; left; simpa using h.symm
  | some out =>
    right
    rw [kana_hit hst ho] at h
    have hge := styled_ge hst.walk ho ((c :: s).take k)
    have hne := (walk_output hst.walk ho).1
    cases hs : styled ((c :: s).take k) out with
    | nil =>
      unfold styled at hs
      split at hs
      · exact absurd (List.map_eq_nil_iff.1 hs) hne
      · exact absurd hs hne
    | cons e t =>
      rw [hs] at h hge
      have : e = d := by simpa using h
      rw [← this]; exact hge e List.mem_cons_self

theorem misses_stops {m : Mode} {s : Str} {n : KNode} {k : Nat} (hst : Stops (tree m) s n k) (ho : n.output = none) :
    Misses m s := by
  intro n' k' h'
  have := (stops_unique _ hst).symm.trans (stops_unique _ h')
  rw [← (Prod.mk.inj this).1]; exact ho

theorem result_loc {m : Mode} (hm : m ≠ .ime) (s : Str) : AllLoc OkAfterN (kana m s) := by
  induction s using list_strong with
  | _ s ih =>
    cases s with
    | nil => rw [kana_nil]; trivial
    | cons c s =>
      obtain ⟨n, k, hst⟩ := exists_stops (tree m) (c :: s)
      cases ho : n.output with
      | some out =>
        have hk := stops_pos hst ho
        rw [kana_hit hst ho]
        exact allLoc_ge (styled_ge hst.walk ho _) (ih _ (by simp; omega))
      | none =>
        have hmiss := misses_stops hst ho
        rw [kana_miss hst ho]
        refine ⟨⟨?_, ?_, ?_⟩, ih s (by simp)⟩
        · intro hc
          refine not_misses_sole (p := [toAsciiLowercase c]) (t := low s) ?_ (by simp [low]) hmiss
          unfold soleKeys
          exact List.mem_append_left _ (List.mem_append_left _ (List.mem_map_of_mem hc))
        · intro hc d hd hn
          cases s with
          | nil => rw [kana_nil] at hd; cases hd
          | cons e s =>
            rcases kana_head hd with rfl | hge
            · exact not_misses_sole (p := ['x', 'n']) (t := low s) (by simp [soleKeys]) (by simp [low, hc, hn]) hmiss
            · have := congrArg Char.toNat hn
              rw [toAsciiLowercase_toNat, if_neg (by omega)] at this
              simp only [Char.reduceToNat] at this
              omega
        · intro hc
          obtain ⟨d, hd, hdy⟩ := misses_n hm hmiss hc
          cases s with
          | nil => cases hd
          | cons e s =>
            have he : e = d := by simpa using hd
            subst he
            obtain ⟨n2, k2, hst2⟩ := exists_stops (tree m) (e :: s)
            cases ho2 : n2.output with
            | none =>
              left
              rw [kana_miss hst2 ho2]
              exact ⟨e, rfl, hdy⟩
            | some out =>
              have hk2 := stops_pos hst2 ho2
              obtain ⟨j, rfl⟩ : ∃ j, k2 = j + 1 := ⟨k2 - 1, by omega⟩
              rcases keys_from_y hst2.walk ho2 (by simp [low, hdy]) with ⟨v, hv, hp⟩ | ⟨⟨w, hw, h1⟩, w', hw', h2⟩
              · exfalso
                obtain ⟨n3, h1, h2, h3⟩ := (n_leaf (m := m) hv).2
                refine not_misses_leaf h1 h2 h3 (t := low ((e :: s).drop (j + 1))) ?_ hmiss
                have : low (e :: s) = ['y', v] ++ low ((e :: s).drop (j + 1)) := by
                  rw [← hp]
                  unfold low
                  rw [← List.map_append, List.take_append_drop]
                show toAsciiLowercase c :: low (e :: s) = _
                rw [this, hc]; rfl
              · right
                rw [kana_hit hst2 ho2]
                unfold styled
                split
                · exact ⟨w', hw', h2.trans (List.prefix_append _ _)⟩
                · exact ⟨w, hw, h1.trans (List.prefix_append _ _)⟩

/-! ## and every text that meets it is a result -/

/-- what has to be typed for a doubled y-syllable -/
def typeY : List (Str × Str) :=
  [(['っ', 'や'], ['y', 'y', 'a']), (['っ', 'い'], ['y', 'y', 'i']), (['っ', 'ゆ'], ['y', 'y', 'u']), (['っ', 'よ'], ['y', 'y', 'o']),
   (['ッ', 'ヤ'], ['Y', 'Y', 'A']), (['ッ', 'イ'], ['Y', 'Y', 'I']), (['ッ', 'ユ'], ['Y', 'Y', 'U']), (['ッ', 'ヨ'], ['Y', 'Y', 'O'])]

theorem kana_typeY {m : Mode} (hm : m ≠ .ime) {w p : Str} (h : (w, p) ∈ typeY) {c : Char} (hc : toAsciiLowercase c = 'n')
    (t : Str) : kana m (c :: p ++ t) = c :: w ++ kana m t := by
  have hall : ([Mode.normal, .obsolete, .ime].all fun m => typeY.all fun x =>
      (match (tree m).walk (low x.2) with
        | none => false
        | some n => n.transitions.isEmpty && (match n.output with | none => false | some out => decide (styled x.2 out = x.1))) &&
      (match (tree m).walk ['n', 'y'] with
        | none => false
        | some n => n.output.isNone && (n.find_transition_node 'y').isNone) &&
      decide (x.2.length = 3 ∧ low (x.2.take 2) = ['y', 'y'])) = true := by decide +kernel
  have hx := List.all_eq_true.1 (List.all_eq_true.1 hall m (by cases m <;> simp)) (w, p) h
  simp only [Bool.and_eq_true, decide_eq_true_iff] at hx
  obtain ⟨⟨h1, h2⟩, h3, h4⟩ := hx
  obtain ⟨y1, y2, v, rfl⟩ : ∃ y1 y2 v, p = [y1, y2, v] := by
    match p, h3 with
    | [y1, y2, v], _ => exact ⟨y1, y2, v, rfl⟩
  simp only [low, List.take_succ_cons, List.take_zero, List.map_cons, List.map_nil, List.cons.injEq, and_true] at h4
  cases hw : (tree m).walk (low [y1, y2, v]) with
  | none => rw [hw] at h1; cases h1
  | some n =>
    rw [hw] at h1
    simp only [Bool.and_eq_true, List.isEmpty_iff] at h1
    obtain ⟨hl, h1⟩ := h1
    cases ho : n.output with
    | none => rw [ho] at h1; cases h1
    | some out =>
      rw [ho, decide_eq_true_iff] at h1
      cases hw2 : (tree m).walk ['n', 'y'] with
      | none => rw [hw2] at h2; cases h2
      | some n2 =>
        rw [hw2] at h2
        simp only [Bool.and_eq_true, Option.isNone_iff_eq_none] at h2
        have hst1 : Stops (tree m) (c :: y1 :: y2 :: v :: t) n2 2 := by
          refine ⟨by simp, ?_, ?_⟩
          · simp only [List.take_succ_cons, List.take_zero, low, List.map_cons, List.map_nil, hc, h4.1]; exact hw2
          · intro d hd
            have : y2 = d := by simpa using hd
            rw [← this, h4.2]; exact h2.2
        have hst2 : Stops (tree m) (y1 :: y2 :: v :: t) n 3 := by
          refine ⟨by simp, hw, ?_⟩
          intro d _
          unfold find_transition_node
          rw [hl]; rfl
        have e1 := kana_miss hst1 h2.1
        have e2 := kana_hit hst2 ho
        show kana m (c :: y1 :: y2 :: v :: t) = _
        rw [e1, e2]
        show c :: (styled [y1, y2, v] out ++ kana m t) = _
        rw [h1]; rfl

/-- the first place where an `n` is not before `y` -/
theorem first_n (r : Str) (h : AllLoc OkAfterN r) : AllLoc YNext r ∨
    ∃ a c w t, r = a ++ (c :: w ++ t) ∧ AllLoc YNext a ∧ toAsciiLowercase c = 'n' ∧ w ∈ Spec.tsuY ∧
      (∀ x, a.getLast? = some x → toAsciiLowercase x ≠ 'x' ∧ toAsciiLowercase x ≠ 'n') := by
  induction r with
  | nil => exact Or.inl trivial
  | cons c r ih =>
    by_cases hb : toAsciiLowercase c = 'n' ∧ ¬ YNext r
    · right
      rcases h.1.n hb.1 with hy | ⟨w, hw, t, e⟩
      · exact absurd hy hb.2
      · exact ⟨[], c, w, t, by rw [← e]; rfl, trivial, hb.1, hw, by simp⟩
    · have hn : toAsciiLowercase c = 'n' → YNext r := fun hc => Classical.byContradiction fun hy => hb ⟨hc, hy⟩
      rcases ih h.2 with h' | ⟨a, d, w, t, e, ha, hd, hw, hl⟩
      · exact Or.inl ⟨⟨h.1.sole, h.1.xn, hn⟩, h'⟩
      · right
        refine ⟨c :: a, d, w, t, by rw [e]; rfl, ⟨⟨h.1.sole, ?_, ?_⟩, ha⟩, hd, hw, ?_⟩
        · intro hc z hz
          cases a with
          | nil => cases hz
          | cons z' a =>
            cases hz
            exact h.1.xn hc z (by rw [e]; rfl)
        · intro hc
          obtain ⟨z, hz, hzy⟩ := hn hc
          rw [e] at hz
          cases a with
          | nil =>
            have : d = z := by simpa using hz
            rw [← this, hd] at hzy
            cases hzy
          | cons z' a => exact ⟨z, hz, hzy⟩
        · intro x hx
          cases a with
          | nil =>
            have hx' : c = x := by simpa using hx
            subst hx'
            refine ⟨fun hc => h.1.xn hc d (by rw [e]; rfl) hd, fun hc => ?_⟩
            obtain ⟨z, hz, hzy⟩ := hn hc
            rw [e] at hz
            have : d = z := by simpa using hz
            rw [← this, hd] at hzy
            cases hzy
          | cons z' a => rw [List.getLast?_cons_cons] at hx; exact hl x hx

theorem exists_typed {m : Mode} (hm : m ≠ .ime) (r : Str) (h : AllLoc OkAfterN r) : ∃ s, kana m s = r := by
  induction r using list_strong with
  | _ r ih =>
    rcases first_n r h with h' | ⟨a, c, w, t, e, ha, hc, hw, hl⟩
    · exact ⟨r, (leftAlone_loc hm r).2 h'⟩
    · obtain ⟨p, hp⟩ : ∃ p, (w, p) ∈ typeY := by
        have : (Spec.tsuY.all fun w => typeY.any fun x => decide (x.1 = w)) = true := by decide
        have := List.all_eq_true.1 this w hw
        obtain ⟨⟨w', p⟩, hx, hw'⟩ := List.any_eq_true.1 this
        rw [decide_eq_true_iff] at hw'
        exact ⟨p, by rw [← hw']; exact hx⟩
      have ht : AllLoc OkAfterN t := by
        rw [e] at h
        exact allLoc_split (a := a ++ c :: w) (by simpa using h)
      obtain ⟨s, hs⟩ := ih t (by rw [e]; simp; omega) ht
      refine ⟨a ++ (c :: p ++ s), ?_⟩
      rw [kana_append, (leftAlone_loc hm a).2 ha, kana_typeY hm hp hc, hs, e]
      apply cut_of_not_adjacent
      intro x y hx hy hadj
      have hy' : c = y := by simpa using hy
      subst hy'
      rw [asciiLower_eq, hc] at hadj
      obtain ⟨h1, h2⟩ := hl x hx
      obtain ⟨k, hk, p', q', e'⟩ := hadj
      have hall : ([Mode.normal, .obsolete, .ime].all fun m => (tableOf m).all fun k =>
          (k.1.zip k.1.tail).all fun x => decide (x.2 = 'n' → x.1 = 'x' ∨ x.1 = 'n')) = true := by decide +kernel
      have := List.all_eq_true.1 (List.all_eq_true.1 (List.all_eq_true.1 hall m (by cases m <;> simp)) k hk)
        (toAsciiLowercase x, 'n') (by
          rw [← e']
          clear e'
          induction p' with
          | nil => simp
          | cons x p ih =>
            cases p with
            | nil => simp
            | cons y p => simp at ih ⊢; exact Or.inr ih)
      rw [decide_eq_true_iff] at this
      exact (this rfl).elim h1 h2

/-- **C97** Exactly which texts are results of `to_kana`. -/
theorem C97_to_kana {std : Std} (hstd : std.Lawful) (r : Str) (o : Options) :
    (∃ s, to_kana_with_opt std s o = .ok r) ↔ Spec.KanaResult (o.imemode && !o.use_obsolete_kana) r := by
  have e : (∃ s, to_kana_with_opt std s o = .ok r) ↔ ∃ s, kana (modeOf o) s = r := by
    constructor
    · rintro ⟨s, h⟩
      rw [to_kana_eq hstd] at h
      exact ⟨s, Except.ok.inj h⟩
    · rintro ⟨s, h⟩
      exact ⟨s, by rw [to_kana_eq hstd, h]⟩
  rw [e, ← ime_of_mode]
  by_cases hm : modeOf o = .ime
  · have h2 : Spec.KanaResult (decide (modeOf o = .ime)) r ↔ Spec.LeftAlone (decide (modeOf o = .ime)) r := by
      rw [decide_eq_true hm]; exact Iff.rfl
    rw [h2, ← leftAlone_iff]
    constructor
    · rintro ⟨s, rfl⟩
      exact kana_idem _ s (Or.inl hm)
    · intro h; exact ⟨r, h⟩
  · rw [decide_eq_false hm, kanaResult_iff]
    constructor
    · rintro ⟨s, rfl⟩
      exact result_loc hm s
    · exact exists_typed hm r

/-- `nっや` is the result for `nyya`; `nっか` is not the result for any text -/
example : to_kana modernStd "nyya".toList = .ok "nっや".toList ∧
    ¬ ∃ s, to_kana modernStd s = .ok "nっか".toList := by
  refine ⟨by decide +kernel, ?_⟩
  show ¬ ∃ s, to_kana_with_opt modernStd s {} = .ok "nっか".toList
  rw [C97_to_kana modernStd_lawful]
  rintro ⟨_, _, h⟩
  have := h [] "っか".toList (by decide)
  revert this
  decide

/-- **C97** Exactly which texts are results of `to_romaji`, for every option: those without a convertible character. -/
theorem C97_to_romaji {std : Std} (hstd : std.Lawful) (r : Str) (o : Options) :
    (∃ s, to_romaji_with_opt std s o = .ok r) ↔ ∀ c ∈ r, ¬ Spec.Convertible c :=
  ⟨fun ⟨s, h⟩ => C35_all_converted hstd s r o h, fun h => ⟨r, C28_unchanged hstd r o h⟩⟩

/-- **C97** Exactly which texts are results of the kana shifts. -/
theorem C97_shifts {std : Std} (hstd : std.Lawful) (r : Str) (dest : Bool) :
    ((∃ s, katakana_to_hiragana_with_opt std s dest = .ok r) ↔
      ∀ c ∈ r, Spec.Katakana c → c ∈ ['ー', '・', 'ヵ', 'ヶ']) ∧
    ((∃ s, hiragana_to_katakana s = .ok r) ↔ ∀ c ∈ r, ¬ Spec.HiraganaLetter c) :=
  ⟨⟨fun ⟨s, h⟩ => C23_no_katakana hstd s r dest h, fun h => ⟨r, C23_unchanged hstd r dest h⟩⟩,
    ⟨fun ⟨s, h⟩ => C22_no_hiragana s r h, fun h => ⟨r, (C95_hiragana_to_katakana r).2 h⟩⟩⟩

end WanaKana
