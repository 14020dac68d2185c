import Verif.Spec.TokenKana
import Verif.Props.LeftAlone
import Verif.Props.Tokenize
/-! # C96: converting token by token -/

namespace WanaKana
open KNode

/-! ## reading up to a mark -/

theorem open_facts {m : Mode} {p : Str} {n : KNode} (hw : (tree m).walk p = some n) :
    (n.output.isSome = true → p.foldl (Spec.Open.next (decide (m = .ime))) .nothing = .nothing ∨
      (m ≠ .ime ∧ p = ['n'])) ∧
    (p ≠ [] → p.head? ≠ some '\'' ∧ p.head? ≠ some ' ') ∧
    (p ≠ [] → p ≠ ['n'] → n.find_transition_node '\'' = none ∧ n.find_transition_node ' ' = none) := by
  have h : ([Mode.normal, .obsolete, .ime].all fun m => (tree m).paths.all fun x =>
      (x.2.output.isNone || decide (x.1.foldl (Spec.Open.next (decide (m = .ime))) .nothing = .nothing) ||
        decide (m ≠ .ime) && decide (x.1 = ['n'])) &&
      (x.1.isEmpty || decide (x.1.head? ≠ some '\'') && decide (x.1.head? ≠ some ' ')) &&
      (x.1.isEmpty || decide (x.1 = ['n']) ||
        (x.2.find_transition_node '\'').isNone && (x.2.find_transition_node ' ').isNone)) = true := by
    decide +kernel
  have := walk_check (List.all_eq_true.1 h m (by cases m <;> simp)) hw
  simp only [Bool.and_eq_true, Bool.or_eq_true, decide_eq_true_iff, Option.isNone_iff_eq_none, List.isEmpty_iff] at this
  obtain ⟨⟨h1, h3⟩, h2⟩ := this
  refine ⟨?_, fun hp => h3.resolve_left hp, ?_⟩
  · intro ho
    rcases h1 with (h1 | h1) | h1
    · rw [h1] at ho; cases ho
    · exact Or.inl h1
    · exact Or.inr h1
  · intro h3 h4
    exact h2.resolve_left (fun h => h.elim h3 h4)

/-- what is open, from the state `p` on -/
def opn (m : Mode) (p : Spec.Open) (s : Str) : Spec.Open := (low s).foldl (Spec.Open.next (decide (m = .ime))) p

theorem openAt_eq (m : Mode) (s : Str) : Spec.openAt (decide (m = .ime)) s = opn m .nothing s := by
  unfold Spec.openAt opn
  rw [asciiLower_eq, low]

theorem opn_append (m : Mode) (p : Spec.Open) (a b : Str) : opn m p (a ++ b) = opn m (opn m p a) b := by
  simp [opn, low]

theorem opn_cons (m : Mode) (p : Spec.Open) (c : Char) (s : Str) :
    opn m p (c :: s) = opn m (Spec.Open.next (decide (m = .ime)) p (toAsciiLowercase c)) s := rfl

/-- two states that the next letter does not tell apart -/
theorem opn_congr {m : Mode} {p q : Spec.Open} {c : Char} {s : Str}
    (h : Spec.Open.next (decide (m = .ime)) p (toAsciiLowercase c) = Spec.Open.next (decide (m = .ime)) q (toAsciiLowercase c)) :
    opn m p (c :: s) = opn m q (c :: s) := by
  rw [opn_cons, opn_cons, h]

theorem next_x {b : Bool} {c : Char} (h : c ≠ 'n') (p q : Spec.Open) : Spec.Open.next b p c = Spec.Open.next b q c := by
  unfold Spec.Open.next
  simp only [if_neg h]

theorem next_n (c : Char) : Spec.Open.next false .n c = Spec.Open.next false .nothing c := by
  unfold Spec.Open.next
  split
  · rfl
  · split <;> rfl

theorem misses_of_stops {m : Mode} {s : Str} {n : KNode} {k : Nat} (hst : Stops (tree m) s n k) (ho : n.output = none) :
    Misses m s := by
  intro n' k' h'
  have := (stops_unique _ hst).symm.trans (stops_unique _ h')
  rw [← (Prod.mk.inj this).1]; exact ho

theorem open_miss {m : Mode} {c : Char} {s : Str} (h : Misses m (c :: s))
    (hs : s ≠ [] ∨ toAsciiLowercase c ≠ 'n') : opn m .nothing (c :: s) = .n ↔ opn m .nothing s = .n := by
  rw [opn_cons]
  by_cases hx : toAsciiLowercase c = 'x'
  · rw [hx]
    cases s with
    | nil => simp [opn, low, Spec.Open.next]
    | cons d s =>
      rw [opn_congr]
      apply next_x
      intro hd
      exact not_misses_sole (p := ['x', 'n']) (t := low s) (by simp [soleKeys]) (by simp [low, hx, hd]) h
  · by_cases hn : toAsciiLowercase c = 'n'
    · rw [hn]
      cases s with
      | nil => simp [hn] at hs
      | cons d s =>
        have : Spec.Open.next (decide (m = .ime)) .nothing 'n' = .n := rfl
        rw [this]
        by_cases hm : m = .ime
        · rw [opn_congr]
          apply next_x
          intro hd
          exact not_misses_sole (p := ['n', 'n']) (t := low s) (by simp [soleKeys, hm]) (by simp [low, hn, hd]) h
        · rw [opn_congr]
          simp only [hm, decide_false]
          exact next_n _
    · have : Spec.Open.next (decide (m = .ime)) .nothing (toAsciiLowercase c) = .nothing := by
        unfold Spec.Open.next
        rw [if_neg hx, if_neg hn]
      rw [this]

theorem open_hit {m : Mode} {s : Str} {n : KNode} {k : Nat} (hst : Stops (tree m) s n k) (ho : n.output.isSome = true)
    (hs : s.drop k ≠ [] ∨ low (s.take k) ≠ ['n']) :
    opn m .nothing s = .n ↔ opn m .nothing (s.drop k) = .n := by
  conv => lhs; rw [← List.take_append_drop k s, opn_append]
  rcases (open_facts hst.walk).1 ho with h | ⟨hm, h⟩
  · have : opn m .nothing (s.take k) = .nothing := h
    rw [this]
  · have h2 : opn m .nothing (s.take k) = .n := by unfold opn; rw [h]; rfl
    rw [h2]
    have := hs.resolve_right (fun h' => h' h)
    cases hd : s.drop k with
    | nil => exact absurd hd this
    | cons d t =>
      rw [opn_congr]
      simp only [hm, decide_false]
      exact next_n _

theorem mark_leaf {m : Mode} {q : Char} (hq : q = '\'' ∨ m = .ime ∧ q = ' ') :
    ∃ n, (tree m).walk ['n', q] = some n ∧ n.output = some ['ん'] ∧ n.transitions = [] := by
  have h : ([Mode.normal, .obsolete, .ime].all fun m => (if m = .ime then ['\'', ' '] else ['\'']).all fun q =>
      match (tree m).walk ['n', q] with
      | none => false | some n => decide (n.output = some ['ん']) && n.transitions.isEmpty) = true := by
    decide +kernel
  have := List.all_eq_true.1 (List.all_eq_true.1 h m (by cases m <;> simp)) q (by
    rcases hq with rfl | ⟨rfl, rfl⟩
    · split <;> simp
    · simp)
  cases hw : (tree m).walk ['n', q] with
  | none => rw [hw] at this; cases this
  | some n =>
    rw [hw] at this
    simp only [Bool.and_eq_true, List.isEmpty_iff, decide_eq_true_iff] at this
    exact ⟨n, rfl, this⟩

/-- the result for a text that ends in an open `n`, and for the text with a mark after it -/
structure Joined (m : Mode) (a b : Str) (q : Char) : Prop where
  joined : ∃ X y z, kana m a = X ++ [y] ∧ kana m (a ++ q :: b) = X ++ z :: kana m b ∧
    y ∈ ['n', 'N', 'ん', 'ン'] ∧ z ∈ ['ん', 'ン']

theorem Joined.step {m : Mode} {a b x a' : Str} {q : Char} (h : Joined m a b q) (h1 : kana m a' = x ++ kana m a)
    (h2 : kana m (a' ++ q :: b) = x ++ kana m (a ++ q :: b)) : Joined m a' b q := by
  obtain ⟨X, y, z, e1, e2, hy, hz⟩ := h.joined
  exact ⟨x ++ X, y, z, by rw [h1, e1, List.append_assoc], by rw [h2, e2, List.append_assoc], hy, hz⟩

theorem joined_n {m : Mode} {c q : Char} (hc : toAsciiLowercase c = 'n') (hq : q = '\'' ∨ m = .ime ∧ q = ' ') (b : Str) :
    Joined m [c] b q := by
  obtain ⟨n, hw, ho, ht⟩ := mark_leaf hq
  have hql : toAsciiLowercase q = q := by rcases hq with rfl | ⟨_, rfl⟩ <;> rfl
  have hst : Stops (tree m) (c :: q :: b) n 2 := by
    refine ⟨by simp, ?_, ?_⟩
    · simp only [List.take_succ_cons, List.take_zero, low, List.map_cons, List.map_nil, hc, hql]; exact hw
    · intro d _
      unfold find_transition_node
      rw [ht]; rfl
  have h2 := kana_hit hst ho
  have hy : ∃ y, kana m [c] = [y] ∧ y ∈ ['n', 'N', 'ん', 'ン'] := by
    rcases lower_n hc with rfl | rfl
    · cases m
      · exact ⟨'ん', by decide +kernel, by decide⟩
      · exact ⟨'ん', by decide +kernel, by decide⟩
      · exact ⟨'n', by decide +kernel, by decide⟩
    · cases m
      · exact ⟨'ン', by decide +kernel, by decide⟩
      · exact ⟨'ン', by decide +kernel, by decide⟩
      · exact ⟨'N', by decide +kernel, by decide⟩
  obtain ⟨y, h1, hy⟩ := hy
  have hz : ∃ z, styled ((c :: q :: b).take 2) ['ん'] = [z] ∧ z ∈ ['ん', 'ン'] := by
    unfold styled
    split
    · exact ⟨'ン', by decide, by decide⟩
    · exact ⟨'ん', rfl, by decide⟩
  obtain ⟨z, h3, hz⟩ := hz
  refine ⟨[], y, z, h1, ?_, hy, hz⟩
  rw [h3] at h2
  exact h2

theorem at_mark {m : Mode} {q : Char} (hq : q = '\'' ∨ m = .ime ∧ q = ' ') (b : Str) (a : Str) :
    (opn m .nothing a = .n → Joined m a b q) ∧
    (opn m .nothing a ≠ .n → kana m (a ++ q :: b) = kana m a ++ kana m (q :: b)) := by
  induction a using list_strong with
  | _ a ih =>
    cases a with
    | nil => exact ⟨fun h => (by cases h), fun _ => by rw [kana_nil]; rfl⟩
    | cons c a =>
      by_cases hn : low (c :: a) = ['n']
      · have ha : a = [] := by
          have := (List.cons.inj hn).2
          simpa [low] using this
        subst ha
        have hc : toAsciiLowercase c = 'n' := (List.cons.inj hn).1
        have hopen : opn m .nothing [c] = .n := by
          unfold opn; rw [hn]; rfl
        exact ⟨fun _ => joined_n hc hq b, fun h => absurd hopen h⟩
      · have hql : toAsciiLowercase q = q := by rcases hq with rfl | ⟨_, rfl⟩ <;> rfl
        obtain ⟨n, k, hst⟩ := exists_stops (tree m) (c :: a)
        have hst2 : Stops (tree m) (c :: a ++ q :: b) n k := hst.append fun hk => by
          have hw := hst.walk
          rw [hk, List.take_length] at hw
          intro d hd
          have hd' : q = d := by simpa using hd
          rw [← hd', hql]
          have := (open_facts hw).2.2 (by simp [low]) hn
          rcases hq with rfl | ⟨_, rfl⟩
          · exact this.1
          · exact this.2
        cases ho : n.output with
        | none =>
          have e1 := kana_miss hst ho
          have e2 : kana m (c :: a ++ q :: b) = c :: kana m (a ++ q :: b) := kana_miss (s := a ++ q :: b) hst2 ho
          have hop := open_miss (misses_of_stops hst ho) (by
            cases a with
            | nil => right; intro h; exact hn (by simp [low, h])
            | cons d a => left; exact List.cons_ne_nil _ _)
          rw [Ne, hop]
          obtain ⟨i1, i2⟩ := ih a (by simp)
          refine ⟨fun h => (i1 h).step (x := [c]) e1 e2, fun h => ?_⟩
          rw [e1, e2, i2 h]; rfl
        | some out =>
          have hk := stops_pos hst ho
          have hle := hst.le
          have e1 := kana_hit hst ho
          have e2 := kana_hit hst2 ho
          rw [List.drop_append_of_le_length hle, List.take_append_of_le_length hle] at e2
          have hop := open_hit hst (by rw [ho]; rfl) (by
            by_cases h : (c :: a).drop k = []
            · right
              have h' := List.take_append_drop k (c :: a)
              rw [h, List.append_nil] at h'
              rw [h']; exact hn
            · exact Or.inl h)
          rw [Ne, hop]
          obtain ⟨i1, i2⟩ := ih ((c :: a).drop k) (by simp [List.length_drop] at *; omega)
          refine ⟨fun h => (i1 h).step e1 e2, fun h => ?_⟩
          rw [e1, e2, i2 h, List.append_assoc]

theorem kana_mark {m : Mode} {q : Char} (hq : q = '\'' ∨ m = .ime ∧ q = ' ') (b : Str) :
    kana m (q :: b) = q :: kana m b := by
  obtain ⟨n, k, hst⟩ := exists_stops (tree m) (q :: b)
  cases ho : n.output with
  | none => exact kana_miss hst ho
  | some out =>
    exfalso
    have hk := stops_pos hst ho
    obtain ⟨j, rfl⟩ : ∃ j, k = j + 1 := ⟨k - 1, by omega⟩
    have := (open_facts hst.walk).2.1 (by simp [low])
    rcases hq with rfl | ⟨_, rfl⟩
    · exact this.1 rfl
    · exact this.2 rfl

/-! ## tokens -/

/-- the marks before which an open `n` makes a difference -/
def Mark (m : Mode) (compact : Bool) (q : Char) : Prop := q = '\'' ∨ m = .ime ∧ compact = false ∧ q = ' '

theorem Mark.mark {m : Mode} {compact : Bool} {q : Char} (h : Mark m compact q) : q = '\'' ∨ m = .ime ∧ q = ' ' :=
  h.imp id fun h => ⟨h.1, h.2.2⟩

theorem lower_eq_of_not_letter {c d : Char} (h : toAsciiLowercase c = d) (hd : ¬ (97 ≤ d.toNat ∧ d.toNat ≤ 122)) :
    c = d := by
  have e := congrArg Char.toNat h
  rw [toAsciiLowercase_toNat] at e
  split at e
  · omega
  · exact Char.ext (UInt32.toNat.inj e)

theorem letter_type {c : Char} (h : 97 ≤ (toAsciiLowercase c).toNat ∧ (toAsciiLowercase c).toNat ≤ 122) (compact : Bool) :
    get_type c compact = .En := by
  rw [toAsciiLowercase_toNat] at h
  have hc : c.toNat ∈ (List.range 128).filter fun i => decide (65 ≤ i ∧ i ≤ 90) || decide (97 ≤ i ∧ i ≤ 122) := by
    rw [List.mem_filter, List.mem_range]
    split at h
    · refine ⟨by omega, ?_⟩
      simp; omega
    · refine ⟨by omega, ?_⟩
      simp; omega
  have hall : (((List.range 128).filter fun i => decide (65 ≤ i ∧ i ≤ 90) || decide (97 ≤ i ∧ i ≤ 122)).all fun i =>
      decide (get_type (Char.ofNat i) true = .En) && decide (get_type (Char.ofNat i) false = .En)) = true := by
    decide +kernel
  have := List.all_eq_true.1 hall _ hc
  rw [Char.ofNat_toNat, Bool.and_eq_true, decide_eq_true_iff, decide_eq_true_iff] at this
  cases compact
  · exact this.2
  · exact this.1

/-- neighbouring characters of a key are letters, except for an apostrophe or space after `n` -/
theorem key_pairs {m : Mode} {u v : Char} (h : Spec.Adjacent (tableOf m) u v) :
    (97 ≤ u.toNat ∧ u.toNat ≤ 122) ∧
    ((97 ≤ v.toNat ∧ v.toNat ≤ 122) ∨ u = 'n' ∧ (v = '\'' ∨ m = .ime ∧ v = ' ')) := by
  obtain ⟨k, hk, p, q, e⟩ := h
  have hall : ([Mode.normal, .obsolete, .ime].all fun m => (tableOf m).all fun k =>
      (k.1.zip k.1.tail).all fun x => decide ((97 ≤ x.1.toNat ∧ x.1.toNat ≤ 122) ∧
        ((97 ≤ x.2.toNat ∧ x.2.toNat ≤ 122) ∨ x.1 = 'n' ∧ (x.2 = '\'' ∨ m = .ime ∧ x.2 = ' ')))) = true := by
    decide +kernel
  have := List.all_eq_true.1 (List.all_eq_true.1 (List.all_eq_true.1 hall m (by cases m <;> simp)) k hk) (u, v) (by
    rw [← e]
    clear e
    induction p with
    | nil => simp
    | cons x p ih =>
      cases p with
      | nil => simp
      | cons y p => simp at ih ⊢; exact Or.inr ih)
  simpa using this

theorem type_pairs {m : Mode} {compact : Bool} {x y : Char}
    (h : Spec.Adjacent (tableOf m) (toAsciiLowercase x) (toAsciiLowercase y))
    (ht : get_type x compact ≠ get_type y compact) : Mark m compact y := by
  obtain ⟨h1, h2⟩ := key_pairs h
  rcases h2 with h2 | ⟨hn, h2⟩
  · exact absurd ((letter_type h1 compact).trans (letter_type h2 compact).symm) ht
  · rcases h2 with h2 | ⟨hm, h2⟩
    · exact Or.inl (lower_eq_of_not_letter h2 (by decide))
    · have hy : y = ' ' := lower_eq_of_not_letter h2 (by decide)
      refine Or.inr ⟨hm, ?_, hy⟩
      cases hc : compact with
      | false => rfl
      | true =>
        subst hc hy
        exact absurd (letter_type h1 true) ht

/-- what is open does not reach over the end of a token -/
theorem open_token {m : Mode} {compact : Bool} {x y : Char} {t r : Str} (ht : t.getLast? = some x)
    (h : get_type x compact ≠ get_type y compact) :
    opn m .nothing (t ++ y :: r) = opn m .nothing (y :: r) := by
  rw [opn_append]
  by_cases hy : toAsciiLowercase y = 'n'
  · have hx : ¬ (97 ≤ (toAsciiLowercase x).toNat ∧ (toAsciiLowercase x).toNat ≤ 122) := by
      intro hx
      exact h ((letter_type hx compact).trans (letter_type (by rw [hy]; decide) compact).symm)
    have : opn m .nothing t = .nothing := by
      obtain ⟨t', rfl⟩ := List.getLast?_eq_some_iff.1 ht
      rw [opn_append]
      show Spec.Open.next _ _ _ = _
      unfold Spec.Open.next
      rw [if_neg (by intro e; rw [e] at hx; exact hx (by decide)), if_neg (by intro e; rw [e] at hx; exact hx (by decide))]
    rw [this]
  · exact opn_congr (next_x hy _ _)

/-- an open `n` before a mark -/
def OpenMark (m : Mode) (compact : Bool) (s : Str) : Prop :=
  ∃ a q b, s = a ++ q :: b ∧ Mark m compact q ∧ opn m .nothing a = .n

theorem openMark_eq (o : Options) (compact : Bool) (s : Str) :
    Spec.OpenBeforeMark (o.imemode && !o.use_obsolete_kana) compact s ↔ OpenMark (modeOf o) compact s := by
  unfold Spec.OpenBeforeMark OpenMark Mark
  rw [← ime_of_mode]
  simp only [openAt_eq, decide_eq_true_iff]

theorem open_last {m : Mode} {a : Str} (h : opn m .nothing a = .n) :
    ∃ a' c, a = a' ++ [c] ∧ toAsciiLowercase c = 'n' := by
  rcases List.eq_nil_or_concat a with rfl | ⟨a', c, rfl⟩
  · cases h
  · refine ⟨a', c, by simp, ?_⟩
    rw [List.concat_eq_append, opn_append] at h
    have h' : Spec.Open.next (decide (m = .ime)) (opn m .nothing a') (toAsciiLowercase c) = .n := h
    unfold Spec.Open.next at h'
    split at h'
    · cases h'
    · split at h'
      · assumption
      · cases h'

theorem mark_type {m : Mode} {compact : Bool} {q : Char} (h : Mark m compact q) : get_type q compact ≠ .En := by
  rcases h with rfl | ⟨_, rfl, rfl⟩
  · cases compact <;> decide +kernel
  · decide +kernel

/-- within one token nothing is open before a mark -/
theorem openMark_token {m : Mode} {compact : Bool} {t : Str} {ty : TokenType} (ht : ∀ c ∈ t, get_type c compact = ty)
    {a b : Str} {q : Char} (hq : Mark m compact q) (ha : opn m .nothing a = .n) (e : a ++ q :: b = t) : False := by
  obtain ⟨a', c, rfl, hc⟩ := open_last ha
  have h1 := ht c (by rw [← e]; simp)
  have h2 := ht q (by rw [← e]; simp)
  rw [letter_type (by rw [hc]; decide)] at h1
  exact mark_type hq (by rw [h2, h1])

theorem openMark_append {m : Mode} {compact : Bool} {t r : Str} {x y : Char} {ty : TokenType}
    (ht : ∀ c ∈ t, get_type c compact = ty) (hx : t.getLast? = some x) (hy : get_type x compact ≠ get_type y compact) :
    OpenMark m compact (t ++ y :: r) ↔ (Mark m compact y ∧ opn m .nothing t = .n) ∨ OpenMark m compact (y :: r) := by
  constructor
  · rintro ⟨a, q, b, e, hq, ha⟩
    rcases List.append_eq_append_iff.1 e with ⟨r', h1, h2⟩ | ⟨r', h1, h2⟩
    · cases r' with
      | nil =>
        rw [List.append_nil] at h1
        rw [List.nil_append] at h2
        left
        rw [(List.cons.inj h2).1, ← h1]
        exact ⟨hq, ha⟩
      | cons z r' =>
        right
        have hz : y = z := (List.cons.inj h2).1
        subst hz
        rw [h1, open_token hx hy] at ha
        exact ⟨y :: r', q, b, h2, hq, ha⟩
    · cases r' with
      | nil =>
        rw [List.append_nil] at h1
        rw [List.nil_append] at h2
        left
        rw [← (List.cons.inj h2).1, h1]
        exact ⟨hq, ha⟩
      | cons z r' =>
        exfalso
        have hz : q = z := (List.cons.inj h2).1
        subst hz
        exact openMark_token ht hq ha h1.symm
  · rintro (⟨hq, ha⟩ | ⟨a, q, b, e, hq, ha⟩)
    · exact ⟨t, y, r, rfl, hq, ha⟩
    · cases a with
      | nil => cases ha
      | cons z a =>
        have hz : y = z := (List.cons.inj e).1
        subst hz
        refine ⟨t ++ y :: a, q, b, by rw [e]; simp, hq, ?_⟩
        rw [open_token hx hy]; exact ha

/-- the number of apostrophes and spaces -/
def marks (s : Str) : Nat := s.countP fun c => decide (c = '\'' ∨ c = ' ')

theorem tokens_kana (m : Mode) (compact : Bool) (L : List (TokenType × Str)) (hne : ∀ t ∈ L, t.2 ≠ [])
    (ht : ∀ t ∈ L, ∀ c ∈ t.2, get_type c compact = t.1) (hm : Spec.AdjacentDiffer L) :
    (¬ OpenMark m compact ((L.map fun t => t.2).flatten) →
      kana m ((L.map fun t => t.2).flatten) = (L.map fun t => kana m t.2).flatten) ∧
    (OpenMark m compact ((L.map fun t => t.2).flatten) →
      marks (kana m ((L.map fun t => t.2).flatten)) < marks (L.map fun t => kana m t.2).flatten) := by
  induction L with
  | nil =>
    refine ⟨fun _ => kana_nil m, ?_⟩
    rintro ⟨a, q, b, e, _⟩
    simp at e
  | cons t L ih =>
    have htt := ht t List.mem_cons_self
    cases L with
    | nil =>
      simp only [List.map_cons, List.map_nil, List.flatten_cons, List.flatten_nil, List.append_nil]
      refine ⟨fun _ => trivial, ?_⟩
      rintro ⟨a, q, b, e, hq, ha⟩
      exact (openMark_token htt hq ha e.symm).elim
    | cons u L =>
      obtain ⟨ih1, ih2⟩ := ih (fun x hx => hne x (List.mem_cons_of_mem _ hx)) (fun x hx => ht x (List.mem_cons_of_mem _ hx)) hm.2
      have eK : ((t :: u :: L).map fun t => kana m t.2).flatten = kana m t.2 ++ ((u :: L).map fun t => kana m t.2).flatten := rfl
      have eS : ((t :: u :: L).map fun t => t.2).flatten = t.2 ++ ((u :: L).map fun t => t.2).flatten := rfl
      rw [eK, eS]
      generalize hT : (List.map (fun t => kana m t.2) (u :: L)).flatten = T at *
      obtain ⟨x, hx⟩ : ∃ x, t.2.getLast? = some x := by
        cases hl : t.2.getLast? with
        | none => exact absurd (List.getLast?_eq_none_iff.1 hl) (hne t List.mem_cons_self)
        | some x => exact ⟨x, rfl⟩
      have hu := hne u (by simp)
      have hut := ht u (by simp)
      obtain ⟨y, r, hr⟩ : ∃ y r, ((u :: L).map fun t => t.2).flatten = y :: r ∧ get_type y compact = u.1 := by
        cases hu2 : u.2 with
        | nil => exact absurd hu2 hu
        | cons y r => exact ⟨y, r ++ (L.map fun t => t.2).flatten, by simp [hu2], hut y (by rw [hu2]; simp)⟩
      obtain ⟨hr, hy⟩ := hr
      rw [hr] at ih1 ih2 ⊢
      have hxt := htt x (List.mem_of_getLast? hx)
      have hxy : get_type x compact ≠ get_type y compact := by
        rw [hxt, hy]; exact hm.1
      rw [openMark_append htt hx hxy]
      have hle : marks (kana m (y :: r)) ≤ marks T := by
        by_cases h : OpenMark m compact (y :: r)
        · exact Nat.le_of_lt (ih2 h)
        · rw [ih1 h]; exact Nat.le_refl _
      by_cases hb : Mark m compact y ∧ opn m .nothing t.2 = .n
      · refine ⟨fun h => absurd (Or.inl hb) h, fun _ => ?_⟩
        obtain ⟨X, p, z, e1, e2, hp, hz⟩ := ((at_mark hb.1.mark r t.2).1 hb.2).joined
        rw [kana_mark hb.1.mark] at hle
        rw [e1, e2]
        have hz0 : marks (z :: kana m r) = marks (kana m r) := by
          simp only [List.mem_cons, List.not_mem_nil, or_false] at hz
          rcases hz with rfl | rfl <;> simp [marks]
        have hy1 : marks (y :: kana m r) = marks (kana m r) + 1 := by
          rcases hb.1.mark with rfl | ⟨_, rfl⟩ <;> simp [marks]
        have : ∀ a b : Str, marks (a ++ b) = marks a + marks b := fun a b => by simp [marks]
        rw [this, this, this]
        omega
      · have hadd : kana m (t.2 ++ y :: r) = kana m t.2 ++ kana m (y :: r) := by
          by_cases hq : Mark m compact y
          · exact (at_mark hq.mark r t.2).2 fun h => hb ⟨hq, h⟩
          · apply kana_append
            apply cut_of_not_adjacent
            intro x' y' hx' hy' hadj
            rw [hx] at hx'
            cases hx'
            simp only [List.head?_cons, Option.some.injEq] at hy'
            subst hy'
            rw [asciiLower_eq] at hadj
            exact hq (type_pairs hadj hxy)
        rw [hadd]
        refine ⟨fun h => ?_, fun h => ?_⟩
        · rw [ih1 fun h' => h (Or.inr h')]
        · have := ih2 (h.resolve_left hb)
          unfold marks at this ⊢
          rw [List.countP_append, List.countP_append]
          omega

theorem mapM_ok {α β : Type} {f : α → Res β} {g : α → β} (l : List α) (h : ∀ x, f x = .ok (g x)) :
    l.mapM f = .ok (l.map g) := by
  induction l with
  | nil => rfl
  | cons x l ih => rw [List.mapM_cons, h, ih]; rfl

/-- **C96** Converting the tokens of a text one by one gives the conversion of the text, exactly if no open `n` stands
before an apostrophe or, in IME mode, before a space that is a token of its own. -/
theorem C96_tokens {std : Std} (hstd : std.Lawful) (s : Str) (o : Options) (compact : Bool) :
    (∃ rs, (tokenize_with_opt s compact).mapM (fun t => to_kana_with_opt std t o) = .ok rs ∧
      to_kana_with_opt std s o = .ok rs.flatten) ↔
    ¬ Spec.OpenBeforeMark (o.imemode && !o.use_obsolete_kana) compact s := by
  rw [openMark_eq]
  have hm := mapM_ok (tokenize_with_opt s compact) (fun t => to_kana_eq hstd t o)
  obtain ⟨h1, h2, h3, h4⟩ := C46_maximal_runs s compact
  obtain ⟨i1, i2⟩ := tokens_kana (modeOf o) compact (tokenize_detailed s compact) h2 h3 h4
  rw [h1] at i1 i2
  have e : (tokenize_with_opt s compact).map (kana (modeOf o)) = (tokenize_detailed s compact).map fun t => kana (modeOf o) t.2 := by
    rw [(C45_same s compact).2, List.map_map]; rfl
  rw [hm, to_kana_eq hstd, e]
  constructor
  · rintro ⟨rs, h5, h6⟩ hbad
    have h5 := Except.ok.inj h5
    have h6 := Except.ok.inj h6
    have := i2 hbad
    rw [h6, ← h5] at this
    omega
  · intro h
    exact ⟨_, rfl, by rw [i1 h]⟩

/-- `n'` is torn apart, `xn'` is not; in IME mode neither is `nn'` -/
example : tokenize "kan'i".toList = ["kan".toList, "'".toList, "i".toList] ∧
    to_kana modernStd "kan'i".toList = .ok "かんい".toList ∧
    Spec.OpenBeforeMark false false "kan'i".toList ∧
    to_kana modernStd "kaxn' カi".toList = .ok "かん' カい".toList ∧
    Spec.openAt false "kaxn".toList ≠ .n ∧ Spec.openAt true "nn".toList ≠ .n := by
  refine ⟨by decide +kernel, by decide +kernel, ⟨"kan".toList, '\'', "i".toList, by decide, by simp, by decide⟩, ?_⟩
  decide +kernel

end WanaKana
