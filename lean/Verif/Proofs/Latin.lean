import Verif.Spec.Latin
import Verif.Props.RoundTripScripts
/-! # Weights of kana and romaji, and letters that stay letters (for C112) -/

namespace WanaKana
open KNode RNode
open Spec (toHira kanaTable)

/-- all characters but the vowels and the kana of the y row count -/
def heavy (c : Char) : Bool :=
  !(decide (0x3041 ≤ c.toNat ∧ c.toNat ≤ 0x304A) || decide (0x3083 ≤ c.toNat ∧ c.toNat ≤ 0x3088) ||
    decide (0x30A1 ≤ c.toNat ∧ c.toNat ≤ 0x30AA) || decide (0x30E3 ≤ c.toNat ∧ c.toNat ≤ 0x30E8))

theorem heavy_iff {c : Char} : heavy c = true ↔ ¬ ((0x3041 ≤ c.toNat ∧ c.toNat ≤ 0x304A) ∨ (0x3083 ≤ c.toNat ∧ c.toNat ≤ 0x3088) ∨
    (0x30A1 ≤ c.toNat ∧ c.toNat ≤ 0x30AA) ∨ (0x30E3 ≤ c.toNat ∧ c.toNat ≤ 0x30E8)) := by
  simp only [heavy, Bool.not_eq_true', Bool.or_eq_false_iff, decide_eq_false_iff_not, not_or, and_assoc]

theorem heavy_toHira (c : Char) : heavy (toHira c) = heavy c := by
  rw [Bool.eq_iff_iff, heavy_iff, heavy_iff, toHira_toNat]
  repeat' split
  all_goals omega

theorem heavy_low {c : Char} (h : c.toNat < 128) : heavy c = true := by
  rw [heavy_iff]; omega

theorem countP_map_eq {p : Char → Bool} {f : Char → Char} (h : ∀ c, p (f c) = p c) (s : Str) :
    (s.map f).countP p = s.countP p := by
  rw [List.countP_map]
  congr 1
  funext c
  exact h c

theorem heavy_fold (s : Str) : (fold s).countP heavy = s.countP heavy := by
  apply countP_map_eq
  intro c
  rw [Bool.eq_iff_iff, heavy_iff, heavy_iff, toKata_eq, asciiLower_eq, h2kP_toNat, toAsciiLowercase_toNat]
  repeat' split
  all_goals omega

theorem heavy_styled (x out : Str) : (styled x out).countP heavy = out.countP heavy := by
  rw [← heavy_fold, fold_styled, heavy_fold]

theorem heavy_kana_low (m : Mode) {s s' : Str} (h : low s = low s') : (kana m s).countP heavy = (kana m s').countP heavy := by
  rw [← heavy_fold, fold_kana m s s' h, heavy_fold]

/-- the weights of a key: what follows its first character is not much lighter -/
def weightKey (m : Mode) (x : Str × KNode) : Bool :=
  decide (m = .ime) || match x.2.output, x.1 with
    | some out, c :: k =>
      decide (out.countP heavy ≤ 1 + (kana m k).countP heavy) &&
      (k == [] || k == ['\''] || (k == ['n'] && decide (out.countP heavy ≤ 1)) || (match k.getLast? with
        | some d => !("bcdfghjklmnpqrstvwxyz".toList.contains d)
        | none => false)) &&
      (c != 'n' || (k != ['n'] && decide ((kana m k).countP heavy ≤ out.countP heavy))) &&
      (c != 'n' || (out.map toHira).head? != some 'ん' || k == [] || k == ['\'']) &&
      out.all (fun d => decide (0x3000 ≤ d.toNat)) && out != []
    | _, _ => true

theorem weight_keys : allModes weightKey = true := by decide +kernel

structure KeyWeights (m : Mode) (c : Char) (k out : Str) : Prop where
  le : out.countP heavy ≤ 1 + (kana m k).countP heavy
  shape : k = [] ∨ k = ['\''] ∨ (k = ['n'] ∧ out.countP heavy ≤ 1) ∨
    ∃ d, k.getLast? = some d ∧ d ∉ "bcdfghjklmnpqrstvwxyz".toList
  n : c = 'n' → k ≠ ['n'] ∧ (kana m k).countP heavy ≤ out.countP heavy
  nasal : c = 'n' → (out.map toHira).head? = some 'ん' → k = [] ∨ k = ['\'']
  kana : ∀ d ∈ out, 0x3000 ≤ d.toNat
  ne : out ≠ []

theorem key_weights {m : Mode} (hm : m ≠ .ime) {c : Char} {k out : Str} {n : KNode} (hw : (tree m).walk (c :: k) = some n)
    (ho : n.output = some out) : KeyWeights m c k out := by
  have h := allModes_walk weight_keys hw
  unfold weightKey at h
  simp only [ho, Bool.or_eq_true, decide_eq_true_iff, Bool.and_eq_true, bne_iff_ne, beq_iff_eq, List.all_eq_true] at h
  obtain ⟨⟨⟨⟨⟨h1, h2⟩, h3⟩, h4⟩, h5⟩, h6⟩ := h.resolve_left hm
  refine ⟨h1, ?_, ?_, ?_, h5, h6⟩
  · rcases h2 with ((h | h) | h) | h
    · exact Or.inl h
    · exact Or.inr (Or.inl h)
    · exact Or.inr (Or.inr (Or.inl h))
    · right; right; right
      cases hk : k.getLast? with
      | none => rw [hk] at h; cases h
      | some d =>
        rw [hk] at h
        exact ⟨d, rfl, by simpa only [Bool.not_eq_true', List.contains_eq_mem, decide_eq_false_iff_not] using h⟩
  · intro hc; exact h3.resolve_left (fun h => h hc)
  · intro hc hh
    rcases h4 with ((h | h) | h) | h
    · exact absurd hc h
    · exact absurd hh h
    · exact Or.inl h
    · exact Or.inr h

/-- the text behind the first character of a hit -/
theorem hit_split {m : Mode} {c : Char} {t : Str} {n : KNode} {k : Nat} (hst : Stops (tree m) (c :: t) n k) {out : Str}
    (ho : n.output = some out) : ∃ a t', t = a ++ t' ∧ k = a.length + 1 ∧ (tree m).walk (toAsciiLowercase c :: low a) = some n ∧
      kana m (c :: t) = styled (c :: a) out ++ kana m t' := by
  have hk := stops_pos hst ho
  obtain ⟨j, rfl⟩ : ∃ j, k = j + 1 := ⟨k - 1, by omega⟩
  have hle := hst.le
  refine ⟨t.take j, t.drop j, (List.take_append_drop _ _).symm, ?_, ?_, ?_⟩
  · rw [List.length_take]; simp at hle; omega
  · exact hst.walk
  · exact kana_hit hst ho

theorem low_last_some {a : Str} {d : Char} (h : (low a).getLast? = some d) : ∃ c, a.getLast? = some c ∧ toAsciiLowercase c = d := by
  unfold low at h
  rw [List.getLast?_map] at h
  cases hc : a.getLast? with
  | none => rw [hc] at h; cases h
  | some c => rw [hc] at h; exact ⟨c, rfl, by simpa using h⟩

theorem low_eq_nil {a : Str} (h : low a = []) : a = [] := List.map_eq_nil_iff.1 h

theorem low_single {a : Str} {d : Char} (h : low a = [d]) : ∃ c, a = [c] ∧ toAsciiLowercase c = d := by
  obtain ⟨c, rfl, hc⟩ := List.map_eq_singleton_iff.1 h
  exact ⟨c, rfl, hc⟩

theorem low_quote {a : Str} (h : low a = ['\'']) : a = ['\''] := by
  obtain ⟨c, rfl, hc⟩ := low_single h
  rw [low_eq_nonletter (by decide) hc]

theorem kana_quote_cons (m : Mode) (t : Str) : kana m ('\'' :: t) = '\'' :: kana m t :=
  kana_cons_not_head (by decide) t

/-- where the tail of a key is converted on its own -/
theorem tail_cut {m : Mode} {a t : Str} (h : low a = ['\''] ∨ ∃ d, (low a).getLast? = some d ∧ d ∉ "bcdfghjklmnpqrstvwxyz".toList) :
    (kana m (a ++ t)).countP heavy = (kana m (low a)).countP heavy + (kana m t).countP heavy := by
  have hl : (kana m (low a)).countP heavy = (kana m a).countP heavy := heavy_kana_low m (low_low a)
  rw [hl, ← List.countP_append]
  rcases h with h | ⟨d, hd, hd2⟩
  · rw [low_quote h, List.singleton_append, kana_quote_cons, kana_quote_cons, kana_nil]
    rfl
  · obtain ⟨c, hc, rfl⟩ := low_last_some hd
    rw [kana_append _ _ (cut_of_last hc hd2)]

theorem kana_n_mono {m : Mode} (hm : m ≠ .ime) {c : Char} (hc : toAsciiLowercase c = 'n') (t : Str) :
    (kana m t).countP heavy ≤ (kana m (c :: t)).countP heavy := by
  obtain ⟨n, k, hst⟩ := exists_stops (tree m) (c :: t)
  cases ho : n.output with
  | none => rw [kana_miss hst ho, List.countP_cons]; omega
  | some out =>
    obtain ⟨a, t', rfl, _, hw, hkana⟩ := hit_split hst ho
    have kw := key_weights hm hw ho
    obtain ⟨hn, hle⟩ := kw.n hc
    rw [hkana, List.countP_append, heavy_styled]
    rcases kw.shape with h | h | ⟨h, _⟩ | h
    · rw [low_eq_nil h]; simp
    · rw [tail_cut (Or.inl h)]; omega
    · exact absurd h hn
    · rw [tail_cut (Or.inr h)]; omega

/-- one more character in front of the romaji adds at most one to the weight -/
theorem kana_cons_heavy {m : Mode} (hm : m ≠ .ime) (c : Char) (t : Str) :
    (kana m (c :: t)).countP heavy ≤ 1 + (kana m t).countP heavy := by
  obtain ⟨n, k, hst⟩ := exists_stops (tree m) (c :: t)
  cases ho : n.output with
  | none => rw [kana_miss hst ho, List.countP_cons]; split <;> omega
  | some out =>
    obtain ⟨a, t', rfl, _, hw, hkana⟩ := hit_split hst ho
    have kw := key_weights hm hw ho
    have hle := kw.le
    rw [hkana, List.countP_append, heavy_styled]
    rcases kw.shape with h | h | ⟨h, h1⟩ | h
    · rw [low_eq_nil h] at hle ⊢
      rw [show low [] = [] from rfl, kana_nil] at hle
      simp at hle ⊢
      omega
    · rw [tail_cut (Or.inl h)]; omega
    · obtain ⟨d, rfl, hd⟩ := low_single h
      have := kana_n_mono hm hd t'
      rw [List.singleton_append]; omega
    · rw [tail_cut (Or.inr h)]; omega

/-! ## letters -/

theorem styled_first {x out : Str} {d : Char} (h : ((styled x out).map toHira).head? = some d) :
    ∃ e, out.head? = some e ∧ (toHira e = d ∨ toHira (h2kP e) = d) := by
  cases out with
  | nil => unfold styled at h; split at h <;> cases h
  | cons e out =>
    refine ⟨e, rfl, ?_⟩
    unfold styled at h
    split at h
    · right; simpa using h
    · left; simpa using h

/-- a result that begins with a letter copied it -/
theorem letter_miss {m : Mode} (hm : m ≠ .ime) {c : Char} (hc : c.toNat < 128) {t s : Str}
    (h : (kana m (c :: t)).map toHira = c :: s) : kana m (c :: t) = c :: kana m t := by
  obtain ⟨n, k, hst⟩ := exists_stops (tree m) (c :: t)
  cases ho : n.output with
  | none => exact kana_miss hst ho
  | some out =>
    exfalso
    obtain ⟨a, t', rfl, _, hw, hkana⟩ := hit_split hst ho
    have kw := key_weights hm hw ho
    rw [hkana] at h
    have h1 : ((styled (c :: a) out).map toHira).head? = some c := by
      have h := congrArg List.head? h
      rw [List.map_append, List.head?_append] at h
      cases hh : ((styled (c :: a) out).map toHira).head? with
      | some d => rw [hh] at h; simpa using h
      | none =>
        exfalso
        have he := List.head?_eq_none_iff.1 hh
        have hn := kw.ne
        unfold styled at he
        split at he <;> simp at he <;> exact hn he
    obtain ⟨e, he, h2⟩ := styled_first h1
    have hge := kw.kana e (List.mem_of_mem_head? he)
    rcases h2 with h2 | h2
    · rw [char_eq_iff, toHira_toNat] at h2
      repeat' split at h2
      all_goals omega
    · rw [char_eq_iff, toHira_toNat, h2kP_toNat] at h2
      repeat' split at h2
      all_goals omega

theorem n_step (m : Mode) (hm : m ≠ .ime) :
    (['a', 'i', 'u', 'e', 'o', 'y', '\''].all fun d => ((tree m).walk ['n', d]).isSome) = true := by
  cases m with
  | normal => decide +kernel
  | obsolete => decide +kernel
  | ime => exact absurd rfl hm

theorem walk_snoc {m : Mode} {p : Str} {n : KNode} {d : Char} (hw : (tree m).walk p = some n)
    (h : ((tree m).walk (p ++ [d])).isSome = true) : n.find_transition_node d ≠ none := by
  intro hn
  rw [walk_append, hw] at h
  simp only [Option.bind, walk, hn] at h
  cases h

/-- a result that begins with ん -/
theorem nasal_first {m : Mode} (hm : m ≠ .ime) {t s : Str} (h : (kana m ('n' :: t)).map toHira = 'ん' :: s) :
    (kana m ('n' :: t) = 'ん' :: kana m t ∧ ∀ d, t.head? = some d → toAsciiLowercase d ∉ ['a', 'i', 'u', 'e', 'o', 'y', '\'']) ∨
    ∃ t', t = '\'' :: t' ∧ kana m ('n' :: t) = 'ん' :: kana m t' := by
  obtain ⟨n, k, hst⟩ := exists_stops (tree m) ('n' :: t)
  cases ho : n.output with
  | none =>
    exfalso
    rw [kana_miss hst ho] at h
    injection h with h _
    exact absurd h (by decide)
  | some out =>
    obtain ⟨a, t', rfl, hk, hw, hkana⟩ := hit_split hst ho
    have kw := key_weights hm hw ho
    have hsty : styled ('n' :: a) out = out := by
      unfold styled
      rw [if_neg]
      intro hh
      have := List.all_eq_true.1 hh 'n' List.mem_cons_self
      exact absurd this (by decide)
    have h1 : (out.map toHira).head? = some 'ん' := by
      rw [hkana, hsty] at h
      have h := congrArg List.head? h
      cases out with
      | nil => exact absurd rfl kw.ne
      | cons e out => simpa using h
    have hout : out = ['ん'] ∧ (low a = [] ∨ low a = ['\'']) := by
      have hk2 := kw.nasal (by decide) h1
      refine ⟨?_, hk2⟩
      have hc : ([['n'], ['n', '\'']].all fun p => decide (((tree m).walk p).map KNode.output = some (some ['ん']))) = true := by
        cases m with
        | normal => decide +kernel
        | obsolete => decide +kernel
        | ime => exact absurd rfl hm
      have hp : toAsciiLowercase 'n' :: low a ∈ [['n'], ['n', '\'']] := by
        rcases hk2 with h | h <;> rw [h] <;> decide
      have := of_decide_eq_true (List.all_eq_true.1 hc _ hp)
      rw [hw] at this
      simp only [Option.map_some, Option.some.injEq, ho] at this
      exact this
    obtain ⟨rfl, ha⟩ := hout
    rcases ha with ha | ha
    · left
      have := low_eq_nil ha
      subst this
      rw [List.nil_append] at hst hkana ⊢
      refine ⟨by rw [hkana, hsty]; rfl, ?_⟩
      intro d hd hmem
      have h2 := hst.stop d (by rw [hk]; simpa using hd)
      exact walk_snoc hw (List.all_eq_true.1 (n_step m hm) _ hmem) h2
    · right
      have := low_quote ha
      subst this
      exact ⟨t', rfl, by rw [hkana, hsty]; rfl⟩

/-- keys are not continued, except n -/
theorem key_leaf {m : Mode} (hm : m ≠ .ime) {p : Str} {n : KNode} {out : Str} (hw : (tree m).walk p = some n)
    (ho : n.output = some out) : p = ['n'] ∨ n.transitions = [] := by
  have h : allModes (fun m x => decide (m = .ime) || x.2.output.isNone || x.1 == ['n'] || x.2.transitions.isEmpty) = true := by
    decide +kernel
  have := allModes_walk h hw
  simp only [Bool.or_eq_true, decide_eq_true_iff, ho, Option.isNone_some, beq_iff_eq, List.isEmpty_iff] at this
  rcases this with ((h | h) | h) | h
  · exact absurd h hm
  · cases h
  · exact Or.inl h
  · exact Or.inr h

theorem stays_iff {m : Mode} (hm : m ≠ .ime) {c : Char} (hc : c.toNat < 128) (t : Str) :
    Spec.StaysLetter (tableOf m) c t ↔ kana m (c :: t) = c :: kana m t := by
  obtain ⟨n, k, hst⟩ := exists_stops (tree m) (c :: t)
  have hmiss : kana m (c :: t) = c :: kana m t ↔ n.output = none := by
    constructor
    · intro h
      cases ho : n.output with
      | none => rfl
      | some out =>
        exfalso
        obtain ⟨a, t', rfl, _, hw, hkana⟩ := hit_split hst ho
        have kw := key_weights hm hw ho
        have h1 : (styled (c :: a) out).head? = some c := by
          rw [hkana] at h
          have h := congrArg List.head? h
          rw [List.head?_append] at h
          cases hh : (styled (c :: a) out).head? with
          | some d => rw [hh] at h; simpa using h
          | none =>
            exfalso
            have he := List.head?_eq_none_iff.1 hh
            have hn := kw.ne
            unfold styled at he
            split at he
            · exact hn (List.map_eq_nil_iff.1 he)
            · exact hn he
        have hcm := List.mem_of_mem_head? h1
        unfold styled at hcm
        split at hcm
        · obtain ⟨e, he, h2⟩ := List.mem_map.1 hcm
          have := kw.kana e he
          rw [char_eq_iff, h2kP_toNat] at h2
          split at h2 <;> omega
        · have := kw.kana c hcm
          omega
    · exact kana_miss hst
  rw [hmiss]
  have hlow : (c :: t).map Spec.asciiLower = low (c :: t) := by rw [asciiLower_eq]
  have hlt : low ((c :: t).take k) = (low (c :: t)).take k := List.map_take
  unfold Spec.StaysLetter
  rw [hlow]
  constructor
  · rintro ⟨h1, h2⟩
    cases ho : n.output with
    | none => rfl
    | some out =>
      exfalso
      have hk := stops_pos hst ho
      have hne : low ((c :: t).take k) ≠ [] := by
        intro e
        have := congrArg List.length (low_eq_nil e)
        simp at this
        omega
      have hl := (walk_table hst.walk hne).1
      rw [ho] at hl
      have := h1 _ (mem_of_lookup hl.symm) (by rw [hlt]; exact List.take_prefix _ _)
      simp only at this
      have hw := hst.walk
      rw [this] at hw
      have hlen := congrArg List.length this
      have hle := hst.le
      have hk1 : k = 1 := by
        unfold low at hlen
        rw [List.length_map, List.length_take, Nat.min_eq_left hle] at hlen
        exact hlen
      subst hk1
      have hcn : toAsciiLowercase c = 'n' := by simpa [low] using this
      rw [asciiLower_eq] at h2
      obtain ⟨d, hd, hd2⟩ := h2 hcn
      have h3 := hst.stop d (by simpa using hd)
      have h4 := List.all_eq_true.1 (n_step m hm) 'y' (by decide)
      rw [hd2] at h3
      exact walk_snoc (p := ['n']) hw h4 h3
  · intro hn
    have hprefix : ∀ p : Str, p <+: low (c :: t) → ∀ n', (tree m).walk p = some n' → p.length ≤ k := by
      intro p hp n' hw'
      apply Classical.byContradiction
      intro hlen
      have hle := hst.le
      have h1 : low ((c :: t).take k) <+: p := by
        apply List.prefix_of_prefix_length_le (l₃ := low (c :: t))
        · rw [hlt]; exact List.take_prefix _ _
        · exact hp
        · unfold low; rw [List.length_map, List.length_take]; omega
      obtain ⟨q, rfl⟩ := h1
      cases q with
      | nil =>
        rw [List.append_nil] at hlen
        unfold low at hlen
        rw [List.length_map, List.length_take] at hlen; omega
      | cons d q =>
        have h2 : ((c :: t).drop k).head?.map toAsciiLowercase = some d := by
          obtain ⟨u, hu⟩ := hp
          have h5 : low (c :: t) = low ((c :: t).take k) ++ low ((c :: t).drop k) := by
            unfold low; rw [← List.map_append, List.take_append_drop]
          rw [h5, List.append_assoc] at hu
          have := List.append_cancel_left hu
          rw [← List.head?_map]
          show (low ((c :: t).drop k)).head? = some d
          rw [← this]; rfl
        cases h3 : ((c :: t).drop k).head? with
        | none => rw [h3] at h2; cases h2
        | some e =>
          rw [h3] at h2
          have h4 := hst.stop e h3
          simp only [Option.map_some, Option.some.injEq] at h2
          rw [h2] at h4
          rw [walk_append, hst.walk] at hw'
          simp only [Option.bind, walk, h4] at hw'
          cases hw'
    have hkey : ∀ p : Str, p <+: low (c :: t) → ∀ n' out, (tree m).walk p = some n' → n'.output = some out → p = ['n'] := by
      intro p hp n' out hw' ho'
      have hlen := hprefix p hp n' hw'
      rcases key_leaf hm hw' ho' with h | h
      · exact h
      · exfalso
        have h1 : p <+: low ((c :: t).take k) := by
          apply List.prefix_of_prefix_length_le (l₃ := low (c :: t)) hp
          · rw [hlt]; exact List.take_prefix _ _
          · have hle := hst.le
            unfold low; rw [List.length_map, List.length_take]; omega
        obtain ⟨q, hq⟩ := h1
        have hw := hst.walk
        rw [← hq, walk_append, hw'] at hw
        cases q with
        | nil =>
          simp only [Option.bind, walk, Option.some.injEq] at hw
          rw [hw, hn] at ho'; cases ho'
        | cons d q =>
          simp only [Option.bind, walk, find_none_of_leaf h] at hw
          cases hw
    refine ⟨?_, ?_⟩
    · intro kk hkk hp
      obtain ⟨n', hw'⟩ := walk_of_prefix hkk (List.prefix_refl _)
      have ho' := (walk_table hw' (key_ne_nil hkk)).1
      have hsome := table_lookup_of_mem hkk
      obtain ⟨out, hout⟩ := Option.isSome_iff_exists.1 hsome
      rw [hout] at ho'
      exact hkey _ hp n' out hw' ho'
    · rw [asciiLower_eq]
      intro hcn
      have hnn := n_node m hm
      cases hw1 : (tree m).walk ['n'] with
      | none => rw [hw1] at hnn; cases hnn
      | some n1 =>
        rw [hw1] at hnn
        simp only [Bool.and_eq_true, decide_eq_true_iff] at hnn
        have hp1 : ['n'] <+: low (c :: t) := ⟨low t, by simp [low, hcn]⟩
        have hk1 := hprefix _ hp1 _ hw1
        have hk2 : k ≠ 1 := by
          rintro rfl
          have hw := hst.walk
          have : low ((c :: t).take 1) = ['n'] := by simp [low, hcn]
          rw [this, hw1] at hw
          cases hw
          rw [hn] at hnn; cases hnn.1
        have hle := hst.le
        simp only [List.length_singleton] at hk1
        cases t with
        | nil => simp at hle; omega
        | cons d t =>
          refine ⟨d, rfl, ?_⟩
          have hp2 : ['n', toAsciiLowercase d] <+: low (c :: d :: t) := ⟨low t, by simp [low, hcn]⟩
          have hw2 : ∃ n2, (tree m).walk ['n', toAsciiLowercase d] = some n2 := by
            have hw := hst.walk
            obtain ⟨j, rfl⟩ : ∃ j, k = j + 2 := ⟨k - 2, by omega⟩
            have e : low ((c :: d :: t).take (j + 2)) = ['n', toAsciiLowercase d] ++ low (t.take j) := by
              simp [low, hcn]
            rw [e, walk_append] at hw
            cases h : (tree m).walk ['n', toAsciiLowercase d] with
            | none => rw [h] at hw; cases hw
            | some n2 => exact ⟨n2, rfl⟩
          obtain ⟨n2, hw2⟩ := hw2
          have hmem : toAsciiLowercase d ∈ "aiueoy'".toList := by
            have h3 := hw2
            rw [show ['n', toAsciiLowercase d] = ['n'] ++ [toAsciiLowercase d] from rfl, walk_append, hw1] at h3
            simp only [Option.bind, walk] at h3
            unfold KNode.find_transition_node at h3
            cases hf : n1.transitions.find? (fun t => t.1 == toAsciiLowercase d) with
            | none => rw [hf] at h3; cases h3
            | some e =>
              have h4 := List.find?_some hf
              have h5 := List.all_eq_true.1 hnn.2 e (List.mem_of_find?_eq_some hf)
              rw [beq_iff_eq] at h4
              rw [List.contains_iff_mem, h4] at h5
              exact h5
          have hy : ∀ d ∈ "aiueoy'".toList, d = 'y' ∨ (((tree m).walk ['n', d]).bind KNode.output).isSome = true := by
            cases m with
            | normal => decide +kernel
            | obsolete => decide +kernel
            | ime => exact absurd rfl hm
          rcases hy _ hmem with h | h
          · exact h
          · exfalso
            rw [hw2] at h
            obtain ⟨out, hout⟩ := Option.isSome_iff_exists.1 h
            have := hkey _ hp2 n2 out hw2 hout
            cases this

end WanaKana
