import Verif.Proofs.RoundTrip
import Verif.Props.Convert

/-! # C36, C57, C58: kana → romaji → kana -/

namespace WanaKana
open KNode
open Spec (toHira toKata asciiUpper kanaTable)

/-- where no long vowel mark follows katakana, the hiragana form is a character-wise shift -/
theorem hiraFrom_map (s : Str) : ∀ before, (∀ a b, s = a ++ 'ー' :: b → ∀ g, Spec.governing (before ++ a) = some g →
    ¬ Spec.KatakanaLetter g) → Spec.hiraFrom true before s = s.map toHira := by
  induction s with
  | nil => intro before _; rfl
  | cons c s ih =>
    intro before h
    rw [Spec.hiraFrom, List.map_cons, ih]
    · split
      · next hc =>
        subst hc
        unfold Spec.markAfter
        split
        · next g hg =>
          rw [if_neg (h [] s rfl g (by simpa using hg))]
          rfl
        · rfl
      · rfl
    · intro a b e g hg
      exact h (c :: a) b (by rw [e]; rfl) g (by simpa using hg)

/-- a text with the script of its characters, converted to hiragana character by character -/
def shifted (s : Str) : Spec.Marked := s.map fun c => (toHira c, decide (Spec.Katakana c))

theorem marked_shifted {s : Str} (h : ∀ a b, s = a ++ 'ー' :: b → ∀ g, Spec.governing a = some g →
    ¬ Spec.KatakanaLetter g) : Spec.marked s = shifted s := by
  unfold Spec.marked shifted
  rw [hiraFrom_map s [] (by simpa using h)]
  clear h
  induction s with
  | nil => rfl
  | cons c s ih => simp [ih]

/-- the facts used about a piece `w` with table entry: its hiragana `h` and its romaji `out` -/
structure Piece (m : Mode) (up : Bool) (w h out : Str) : Prop where
  mem : h ∈ tablePieces m
  hira : w.map toHira = h
  look : kanaTable.lookup h = some out
  check : outCheck m h w (if up = true ∧ ∀ c ∈ w, Spec.Katakana c then out.map asciiUpper else out) = true

theorem piece_of_hira {m : Mode} (hm : m ≠ .ime) {std : Std} (hstd : std.Lawful) {h : Str} (hmem : h ∈ tablePieces m)
    (up : Bool) : (∃ out, Piece m up h h out) ∧
      (up = true → ∃ out, Piece m up (h.map toKata) h out) ∧ (∀ c r, h = c :: r → c ∈ Spec.vowelOrY → r = []) := by
  have hc := List.all_eq_true.1 (pieceCheck_all m hm) h hmem
  unfold pieceCheck at hc
  cases hw : TO_ROMAJI_NODE_TREE.mwalk h with
  | none => rw [hw] at hc; cases hc
  | some n =>
    rw [hw] at hc
    simp only [Bool.and_eq_true, decide_eq_true_iff, Bool.not_eq_true'] at hc
    obtain ⟨⟨⟨⟨⟨⟨⟨c1, c2⟩, c3⟩, c4⟩, c5⟩, c6⟩, c7⟩, c8⟩ := hc
    cases h with
    | nil => cases c8
    | cons x h =>
      have hv : 'ゔ' ∉ x :: h := by simpa using c5
      have hl : kanaTable.lookup (x :: h) = some n.output :=
        table_of_mwalk hv (by simpa using c6) hstd (by rw [rwalk_eq_mwalk hstd _ hv, hw])
      have first : Piece m up (x :: h) (x :: h) n.output := by
        refine ⟨hmem, c4, hl, ?_⟩
        split
        · next hcond =>
          rcases c7 with c7 | c7
          · rw [c7] at c2; exact c2
          · exact absurd hcond.2 c7.2
        · exact c1
      refine ⟨⟨_, first⟩, fun hup => ?_, ?_⟩
      · rcases c7 with c7 | c7
        · rw [c7]; exact ⟨_, first⟩
        · refine ⟨n.output, hmem, c3, hl, ?_⟩
          rw [if_pos ⟨hup, c7.1⟩]
          exact c2
      · intro c r e hcv
        cases e
        simp only [decide_eq_true_iff] at c8
        rcases c8 with c8 | c8
        · exact absurd hcv c8
        · exact c8

theorem piece_cases {m : Mode} (hm : m ≠ .ime) {std : Std} (hstd : std.Lawful) {up : Bool} {w : Str}
    (hw : Spec.RegularPiece up (obsOf m) w) : (∃ h out, Piece m up w h out) ∨ ∃ c, Spec.Neutral c ∧ w = [c] := by
  rcases hw with hw | ⟨hup, h, hh, rfl⟩ | ⟨c, hc, rfl⟩ | hw
  · exact Or.inl ⟨w, (piece_of_hira hm hstd (List.mem_append_left _ hw) up).1⟩
  · exact Or.inl ⟨h, (piece_of_hira hm hstd (List.mem_append_left _ hh) up).2.1 hup⟩
  · exact Or.inl ⟨[c], (piece_of_hira hm hstd (List.mem_append_right _ (List.mem_map_of_mem hc)) up).1⟩
  · exact Or.inr hw

theorem tablePieces_head {m : Mode} {h : Str} (hmem : h ∈ tablePieces m) :
    ∃ c r, h = c :: r ∧ c ∈ pieceHeads ∧ (c ≠ 'っ' ∨ r ≠ []) := by
  have hc := List.all_eq_true.1 (pieceHeads_all m) h hmem
  cases h with
  | nil => cases hc
  | cons c r =>
    simp only [Bool.and_eq_true, decide_eq_true_iff] at hc
    exact ⟨c, r, rfl, hc.1, hc.2⟩

theorem neutral_toHira {c : Char} (h : ¬ Spec.Convertible c) : toHira c = c := by
  apply toHira_other
  rw [convertible_iff] at h
  cases hk : keeps c with
  | true => exact Or.inl rfl
  | false =>
    right; right
    cases ha : is_char_katakana c with
    | true => exact absurd (Or.inr ⟨ha, hk⟩) h
    | false => rfl

/-- the first character of a piece -/
theorem piece_head {m : Mode} (hm : m ≠ .ime) {std : Std} (hstd : std.Lawful) {up : Bool} {w : Str}
    (hw : Spec.RegularPiece up (obsOf m) w) :
    ∃ c r, w = c :: r ∧ (toHira c ∈ pieceHeads ∨ ¬ Spec.Convertible (toHira c)) := by
  rcases piece_cases hm hstd hw with ⟨h, out, hp⟩ | ⟨c, hc, rfl⟩
  · obtain ⟨c, r, rfl, hc, _⟩ := tablePieces_head hp.mem
    have := hp.hira
    cases w with
    | nil => cases this
    | cons d w =>
      rw [List.map_cons] at this
      cases this
      exact ⟨d, w, rfl, Or.inl hc⟩
  · exact ⟨c, [], rfl, Or.inr (by rw [neutral_toHira hc.1]; exact hc.1)⟩

/-- a piece is the longest key at its position, unless it is ん before a vowel -/
theorem piece_longest {m : Mode} {h rest : Str} {out : Str} (hmem : h ∈ tablePieces m) (hl : kanaTable.lookup h = some out)
    (hr : ∀ x, rest.head? = some x → (x ∈ pieceHeads ∨ ¬ Spec.Convertible x) ∧ ¬ (h = ['ん'] ∧ x ∈ Spec.vowelOrY)) :
    Spec.LongestKey kanaTable (h ++ rest) h := by
  refine ⟨List.prefix_append _ _, by rw [hl]; rfl, ?_⟩
  intro q hq hk
  apply Classical.byContradiction
  intro hlen
  obtain ⟨o, ho⟩ := Option.isSome_iff_exists.1 hk
  have hc := List.all_eq_true.1 keyCheck_all _ (mem_of_lookup ho)
  obtain ⟨c, r, rfl, hc1, hc2⟩ := tablePieces_head hmem
  obtain ⟨t, rfl⟩ : c :: r <+: q :=
    List.prefix_of_prefix_length_le (List.prefix_append _ _) hq (by omega)
  have ht : t <+: rest := (List.prefix_append_right_inj _).1 hq
  cases t with
  | nil => simp at hlen
  | cons x t =>
    have hx : rest.head? = some x := by
      obtain ⟨u, rfl⟩ := ht
      rfl
    obtain ⟨h1, h2⟩ := hr x hx
    simp only [Bool.and_eq_true, List.all_eq_true, decide_eq_true_iff] at hc
    have hconv := hc.1 x (by simp)
    have hx1 : x ∈ pieceHeads := h1.resolve_right (fun h => h hconv)
    have hc' := hc.2
    cases r with
    | nil =>
      cases t with
      | nil =>
        simp only [List.cons_append, List.nil_append, decide_eq_true_iff] at hc'
        rcases hc' with h | h | h
        · exact h hx1
        · exact hc2.elim (fun h' => h' h) (fun h' => h' rfl)
        · exact h2 ⟨by rw [h.1], h.2⟩
      | cons y t =>
        cases t with
        | nil =>
          simp only [List.cons_append, List.nil_append, decide_eq_true_iff] at hc'
          exact hc2.elim (fun h' => h' hc'.1) (fun h' => h' rfl)
        | cons z t => simp at hc'
    | cons y r =>
      cases r with
      | nil =>
        cases t with
        | nil =>
          simp only [List.cons_append, List.nil_append, decide_eq_true_iff] at hc'
          exact hc'.2 hx1
        | cons z t => simp at hc'
      | cons z r => 
        cases r <;> simp at hc'

theorem neutral_head {c : Char} (h : Spec.Neutral c) : headChar (toAsciiLowercase c) = false := by
  cases hc : headChar (toAsciiLowercase c) with
  | false => rfl
  | true =>
    exfalso
    rw [headChar_low_iff] at hc
    obtain ⟨_, h1, h2⟩ := h
    rcases hc with hc | hc
    · exact h1 hc
    · apply h2
      simp only [List.mem_cons, List.not_mem_nil, or_false] at hc ⊢
      rcases hc with h | h | h | h | h | h | h | h | h | h | h | h | h | h | h | h | h | h <;> simp [h]

theorem neutral_not_vowel {c : Char} (h : Spec.Neutral c) :
    toAsciiLowercase c ∉ ['a', 'i', 'u', 'e', 'o', 'y', '\''] := by
  obtain ⟨_, h1, h2⟩ := h
  intro hm
  have h3 : c ≠ '\'' := fun e => h2 (by subst e; decide)
  simp only [List.mem_cons, List.not_mem_nil, or_false, char_eq_iff, Char.reduceToNat, toAsciiLowercase_toNat] at hm
  simp only [ne_eq, char_eq_iff, Char.reduceToNat] at h3
  simp only [Spec.AsciiLetter, Spec.In] at h1
  split at hm <;> omega

theorem key_conv {q out : Str} (h : kanaTable.lookup q = some out) : q ≠ [] ∧ ∀ c ∈ q, Spec.Convertible c := by
  have hc := List.all_eq_true.1 keyCheck_all _ (mem_of_lookup h)
  simp only [Bool.and_eq_true, List.all_eq_true, decide_eq_true_iff] at hc
  exact ⟨(mwalk_of_table h).2.1, hc.1⟩

theorem shifted_append (a b : Str) : shifted (a ++ b) = shifted a ++ shifted b := List.map_append

theorem shifted_fst (a : Str) : (shifted a).map Prod.fst = a.map toHira := by
  unfold shifted
  rw [List.map_map]
  rfl

theorem shifted_flags (a : Str) : (∀ x ∈ shifted a, x.2 = true) ↔ ∀ c ∈ a, Spec.Katakana c := by
  unfold shifted
  simp

/-- one step of the transliteration for a table key -/
theorem romanized_key {up : Bool} {w h out rest r : Str} (hw : w.map toHira = h) (hl : kanaTable.lookup h = some out)
    (hlong : Spec.LongestKey kanaTable (h ++ rest.map toHira) h) (hr : Spec.Romanized kanaTable up (shifted rest) r) :
    Spec.Romanized kanaTable up (shifted (w ++ rest))
      ((if up = true ∧ ∀ c ∈ w, Spec.Katakana c then out.map asciiUpper else out) ++ r) := by
  have hlen : h.length = (shifted w).length := by rw [← hw]; simp [shifted]
  have := @Spec.Romanized.hit kanaTable up (shifted (w ++ rest)) h out r
    (by rw [shifted_fst, List.map_append, hw]; exact hlong) hl
    (by rw [shifted_append, hlen, List.drop_left]; exact hr)
  rw [shifted_append, hlen, List.take_left] at this
  simp only [shifted_flags] at this
  rw [shifted_append]
  exact this

theorem kana_n {m : Mode} (hm : m ≠ .ime) {c : Char} (hc : toAsciiLowercase c = 'n') {t : Str}
    (ht : ∀ d, t.head? = some d → toAsciiLowercase d ∉ ['a', 'i', 'u', 'e', 'o', 'y', '\'']) :
    kana m (c :: t) = styled [c] ['ん'] ++ kana m t := by
  have h := n_node m hm
  cases hw : (tree m).walk ['n'] with
  | none => rw [hw] at h; cases h
  | some n =>
    rw [hw] at h
    simp only [Bool.and_eq_true, decide_eq_true_iff] at h
    have hst : Stops (tree m) (c :: t) n 1 := by
      refine ⟨by simp, by simpa [low, hc] using hw, ?_⟩
      intro d hd
      have := ht d (by simpa using hd)
      unfold find_transition_node
      cases hf : n.transitions.find? (fun t => t.1 == toAsciiLowercase d) with
      | none => rfl
      | some e =>
        exfalso
        have h1 := List.find?_some hf
        have h2 := List.all_eq_true.1 h.2 e (List.mem_of_find?_eq_some hf)
        rw [beq_iff_eq] at h1
        rw [List.contains_iff_mem, h1] at h2
        exact this (by simpa using h2)
    rw [kana_hit hst h.1]
    rfl

/-- the main induction: regular text has a greedy transliteration that converts back -/
theorem round_main {m : Mode} (hm : m ≠ .ime) {std : Std} (hstd : std.Lawful) (up : Bool) (ws : List Str) :
    (∀ w ∈ ws, Spec.RegularPiece up (obsOf m) w) →
    (∀ a x y b, ws.flatten = a ++ x :: y :: b → toHira x = 'ん' → toHira y ∈ Spec.vowelOrY →
      x = 'ん' ∧ ¬ Spec.Katakana y) →
    ∃ r, Spec.Romanized kanaTable up (shifted ws.flatten) r ∧ kana m r = ws.flatten ∧
      ∀ c, r.head? = some c → (∃ y, ws.flatten.head? = some y ∧ toHira y ∈ Spec.vowelOrY) ∨
        toAsciiLowercase c ∉ ['a', 'i', 'u', 'e', 'o', 'y', '\''] := by
  induction ws using list_strong with
  | _ ws ih =>
    intro hw nas
    cases ws with
    | nil => exact ⟨[], Spec.Romanized.nil, kana_nil m, by simp⟩
    | cons w ws =>
      have hws : ∀ v ∈ ws, Spec.RegularPiece up (obsOf m) v := fun v hv => hw v (List.mem_cons_of_mem _ hv)
      obtain ⟨r, hr1, hr2, hr3⟩ := ih ws (by simp) hws (by
        intro a x y b e
        exact nas (w ++ a) x y b (by rw [List.flatten_cons, e, List.append_assoc]))
      rw [List.flatten_cons]
      rcases piece_cases hm hstd (hw w (by simp)) with ⟨h, out, hp⟩ | ⟨c, hc, rfl⟩
      · by_cases hnas : h = ['ん'] ∧ ∃ x, (ws.flatten.map toHira).head? = some x ∧ x ∈ Spec.vowelOrY
        · -- ん before a vowel
          obtain ⟨hh, x, hx, hxv⟩ := hnas
          cases ws with
          | nil => simp at hx
          | cons v ws =>
            have hv := hw v (by simp)
            obtain ⟨y, v', hv', _⟩ := piece_head hm hstd hv
            subst hv'
            have hyx : toHira y = x := by simpa using hx
            have hconv : ∀ z ∈ Spec.vowelOrY, Spec.Convertible z ∧ ¬ Spec.Katakana z := by decide +kernel
            have hv1 : v' = [] := by
              rcases piece_cases hm hstd hv with ⟨h2, out2, hp2⟩ | ⟨c, hc, e⟩
              · have := hp2.hira
                rw [List.map_cons, hyx] at this
                have := (piece_of_hira hm hstd hp2.mem up).2.2 x _ this.symm hxv
                simpa using this
              · cases e; rfl
            subst hv1
            have hwe := hp.hira
            rw [hh] at hwe
            cases w with
            | nil => cases hwe
            | cons z w =>
              simp only [List.map_cons, List.cons.injEq, List.map_eq_nil_iff] at hwe
              obtain ⟨hz, rfl⟩ := hwe
              obtain ⟨hz1, hy1⟩ := nas [] z y ws.flatten (by simp) hz (by rw [hyx]; exact hxv)
              subst hz1
              have hy2 : y = x := by
                rw [← hyx]
                symm
                apply toHira_other
                right; right
                cases hk : is_char_katakana y with
                | false => rfl
                | true =>
                  exfalso
                  apply hy1
                  rw [is_char_katakana_iff] at hk
                  exact specKatakana_iff.2 (by omega)
              subst hy2
              obtain ⟨r, hr1, hr2, hr3⟩ := ih ws (by simp; omega) (fun u hu => hws u (List.mem_cons_of_mem _ hu)) (by
                intro a x y' b e
                exact nas ('ん' :: y :: a) x y' b (by simp [e]))
              have hn := List.all_eq_true.1 (nasalCheck_all m hm) y hxv
              cases hmw : TO_ROMAJI_NODE_TREE.mwalk ['ん', y] with
              | none => rw [hmw] at hn; cases hn
              | some n =>
                rw [hmw] at hn
                simp only [] at hn
                split at hn
                · next o eo =>
                  simp only [Bool.and_eq_true, decide_eq_true_iff] at hn
                  obtain ⟨⟨⟨n1, n2⟩, n3⟩, n4⟩ := hn
                  have hgu : 'ゔ' ∉ ['ん', y] ∧ 'ヷ' ∉ ['ん', y] := by
                    have : ∀ z ∈ Spec.vowelOrY, 'ゔ' ∉ ['ん', z] ∧ 'ヷ' ∉ ['ん', z] := by decide +kernel
                    exact this y hxv
                  have hl : kanaTable.lookup ['ん', y] = some n.output :=
                    table_of_mwalk hgu.1 hgu.2 hstd (by rw [rwalk_eq_mwalk hstd _ hgu.1, hmw])
                  have hlong : Spec.LongestKey kanaTable (['ん', y] ++ ws.flatten.map toHira) ['ん', y] := by
                    refine ⟨List.prefix_append _ _, by rw [hl]; rfl, ?_⟩
                    intro q hq hk
                    apply Classical.byContradiction
                    intro hlen
                    obtain ⟨o, ho⟩ := Option.isSome_iff_exists.1 hk
                    have hc := List.all_eq_true.1 keyCheck_all _ (mem_of_lookup ho)
                    obtain ⟨t, rfl⟩ : ['ん', y] <+: q :=
                      List.prefix_of_prefix_length_le (List.prefix_append _ _) hq (by omega)
                    cases t with
                    | nil => simp at hlen
                    | cons x t => cases t <;> simp at hc
                  have hrom := romanized_key (up := up) (w := ['ん', y]) (rest := ws.flatten)
                    (by simp [hyx]; decide +kernel) hl hlong hr1
                  rw [if_neg (by intro h; exact absurd (h.2 'ん' (by simp)) (by decide +kernel)), eo] at hrom
                  refine ⟨_, hrom, ?_, ?_⟩
                  · have e1 := kana_isKey (t := o ++ r) n1 (x := ['n', '\'']) (by decide +kernel)
                    have e2 := kana_isKey (t := r) n2 (x := o) n4
                    rw [n3] at e2
                    have e3 : styled ['n', '\''] ['ん'] = ['ん'] := by decide +kernel
                    rw [e2, hr2, e3] at e1
                    simpa using e1
                  · intro c hc
                    right
                    simp at hc
                    subst hc
                    decide
                · cases hn
        · -- any other syllable or mark
          have hlong : Spec.LongestKey kanaTable (h ++ ws.flatten.map toHira) h := by
            apply piece_longest hp.mem hp.look
            intro x hx
            refine ⟨?_, fun e => hnas ⟨e.1, x, hx, e.2⟩⟩
            cases ws with
            | nil => simp at hx
            | cons v ws =>
              obtain ⟨y, v', rfl, hy⟩ := piece_head hm hstd (hws v (by simp))
              have : toHira y = x := by simpa using hx
              rw [← this]; exact hy
          have hrom := romanized_key (up := up) hp.hira hp.look hlong hr1
          have hck := hp.check
          generalize (if up = true ∧ ∀ c ∈ w, Spec.Katakana c then out.map asciiUpper else out) = x at hrom hck
          refine ⟨_, hrom, ?_, ?_⟩
          · unfold outCheck at hck
            split at hck
            · next hh =>
              have ht : ∀ d, r.head? = some d → toAsciiLowercase d ∉ ['a', 'i', 'u', 'e', 'o', 'y', '\''] := by
                intro d hd
                rcases hr3 d hd with ⟨y, hy1, hy2⟩ | h
                · exact absurd ⟨hh, toHira y, by rw [List.head?_map, hy1]; rfl, hy2⟩ hnas
                · exact h
              rw [decide_eq_true_iff] at hck
              rcases hck with ⟨rfl, rfl⟩ | ⟨rfl, rfl⟩
              · have := kana_n hm (c := 'n') (by decide) ht
                have e : styled ['n'] ['ん'] = ['ん'] := by decide +kernel
                rw [e, hr2] at this
                exact this
              · have := kana_n hm (c := 'N') (by decide) ht
                have e : styled ['N'] ['ん'] = ['ン'] := by decide +kernel
                rw [e, hr2] at this
                exact this
            · simp only [Bool.and_eq_true, decide_eq_true_iff] at hck
              rw [kana_isKey hck.1.1 rfl, hck.1.2, hr2]
          · intro c hc
            unfold outCheck at hck
            split at hck
            · right
              rw [decide_eq_true_iff] at hck
              rcases hck with ⟨rfl, rfl⟩ | ⟨rfl, rfl⟩ <;> (simp at hc; subst hc; decide)
            · simp only [Bool.and_eq_true] at hck
              have h3 := hck.2
              cases x with
              | nil => cases h3
              | cons d x =>
                simp at hc
                subst hc
                simp only [List.head?_cons, Bool.or_eq_true, decide_eq_true_iff, Bool.not_eq_true',
                  List.contains_eq_mem, decide_eq_false_iff_not] at h3
                rcases h3 with h3 | h3
                · left
                  obtain ⟨z, hz1, hz2⟩ := List.mem_map.1 h3
                  have := hp.hira
                  cases w with
                  | nil => subst this; cases hz2
                  | cons y w =>
                    refine ⟨y, rfl, ?_⟩
                    subst this
                    simp at hz2
                    rw [← hz2]; exact hz1
                · exact Or.inr h3
      · -- a character that is copied
        refine ⟨c :: r, ?_, ?_, ?_⟩
        · have := @Spec.Romanized.miss kanaTable up (toHira c, decide (Spec.Katakana c)) (shifted ws.flatten) r (by
            intro q hq
            cases hl : kanaTable.lookup q with
            | none => rfl
            | some o =>
              exfalso
              obtain ⟨h1, h2⟩ := key_conv hl
              cases q with
              | nil => exact h1 rfl
              | cons d q =>
                rw [List.map_cons, List.cons_prefix_cons] at hq
                have := h2 d (by simp)
                rw [hq.1, neutral_toHira hc.1] at this
                exact hc.1 this) hr1
          rw [neutral_toHira hc.1] at this
          simpa [shifted, neutral_toHira hc.1] using this
        · rw [kana_cons_not_head (neutral_head hc), hr2]; rfl
        · intro d hd
          simp at hd
          subst hd
          exact Or.inr (neutral_not_vowel hc)

theorem piece_no_vu {m : Mode} (hm : m ≠ .ime) {std : Std} (hstd : std.Lawful) {up : Bool} {w : Str}
    (hw : Spec.RegularPiece up (obsOf m) w) : 'ゔ' ∉ w ∧ 'ヴ' ∉ w := by
  rcases piece_cases hm hstd hw with ⟨h, out, hp⟩ | ⟨c, hc, rfl⟩
  · have hv : 'ゔ' ∉ h := (mwalk_of_table hp.look).2.2.1
    rw [← hp.hira] at hv
    exact ⟨fun h => hv (List.mem_map.2 ⟨_, h, by decide +kernel⟩), fun h => hv (List.mem_map.2 ⟨_, h, by decide +kernel⟩)⟩
  · constructor
    · intro h
      simp at h; subst h
      exact hc.1 (by decide +kernel)
    · intro h
      simp at h; subst h
      exact hc.1 (by decide +kernel)

theorem modeOf_ne_ime {o : Options} (h : o.imemode = true → o.use_obsolete_kana = true) : modeOf o ≠ .ime := by
  unfold modeOf
  split
  · simp
  · split
    · next h1 h2 => exact absurd (h h2) h1
    · simp

theorem obsOf_modeOf (o : Options) : obsOf (modeOf o) = o.use_obsolete_kana := by
  unfold modeOf
  cases h : o.use_obsolete_kana with
  | true => rfl
  | false => cases h2 : o.imemode <;> rfl

theorem regular_mono {up obs : Bool} {w : Str} (h : Spec.RegularPiece false obs w) : Spec.RegularPiece up obs w := by
  rcases h with h | ⟨h, _⟩ | h | h
  · exact Or.inl h
  · cases h
  · exact Or.inr (Or.inr (Or.inl h))
  · exact Or.inr (Or.inr (Or.inr h))

/-- the trip for text in both scripts -/
theorem round_trip {std : Std} (hstd : std.Lawful) {o o' : Options} (hime : o'.imemode = true → o'.use_obsolete_kana = true)
    (ws : List Str) (hw : ∀ w ∈ ws, Spec.RegularPiece o.upcase_katakana o'.use_obsolete_kana w)
    (nas : ∀ a x y b, ws.flatten = a ++ x :: y :: b → toHira x = 'ん' → toHira y ∈ Spec.vowelOrY →
      x = 'ん' ∧ ¬ Spec.Katakana y)
    (dash : ∀ a b, ws.flatten = a ++ 'ー' :: b → ∀ g, Spec.governing a = some g → ¬ Spec.KatakanaLetter g) :
    ∃ r, to_romaji_with_opt std ws.flatten o = .ok r ∧ to_kana_with_opt std r o' = .ok ws.flatten := by
  have hm := modeOf_ne_ime hime
  rw [← obsOf_modeOf o'] at hw
  obtain ⟨r, h1, h2, _⟩ := round_main hm hstd o.upcase_katakana ws hw nas
  have hvu : 'ゔ' ∉ ws.flatten ∧ 'ヴ' ∉ ws.flatten := by
    constructor <;> intro h <;> obtain ⟨w, hw1, hw2⟩ := List.mem_flatten.1 h
    · exact (piece_no_vu hm hstd (hw w hw1)).1 hw2
    · exact (piece_no_vu hm hstd (hw w hw1)).2 hw2
  have h3 := C56_greedy_no_vu hstd ws.flatten _ o hvu.1 hvu.2 (to_romaji_eq hstd _ _)
  rw [marked_shifted dash] at h3
  refine ⟨r, ?_, by rw [to_kana_eq hstd, h2]⟩
  rw [to_romaji_eq hstd, romanized_unique kanaTable_nil h3 h1]

/-- every character of a hiragana piece is its own hiragana form -/
theorem hira_piece_fixed {m : Mode} (hm : m ≠ .ime) {w : Str} (hw : Spec.RegularPiece false (obsOf m) w) :
    ∀ c ∈ w, toHira c = c := by
  have key : ∀ h ∈ tablePieces m, ∀ c ∈ h, toHira c = c := by
    intro h hh c hc
    have hk := List.all_eq_true.1 (pieceCheck_all m hm) h hh
    unfold pieceCheck at hk
    cases hw : TO_ROMAJI_NODE_TREE.mwalk h with
    | none => rw [hw] at hk; cases hk
    | some n =>
      rw [hw] at hk
      simp only [Bool.and_eq_true, decide_eq_true_iff, Bool.not_eq_true'] at hk
      have := hk.1.1.1.1.2
      exact List.map_inj_left.1 (this.trans (List.map_id h).symm) c hc
  rcases hw with hw | ⟨h, _⟩ | ⟨c, hc, rfl⟩ | ⟨c, hc, rfl⟩
  · exact key w (List.mem_append_left _ hw)
  · cases h
  · exact key [c] (List.mem_append_right _ (List.mem_map_of_mem hc))
  · intro d hd
    simp at hd; subst hd
    exact neutral_toHira hc.1

theorem fixed_not_letter {c : Char} (h : toHira c = c) : ¬ Spec.KatakanaLetter c ∨ c = 'ヵ' ∨ c = 'ヶ' := by
  simp only [char_eq_iff, Char.reduceToNat]
  rw [char_eq_iff, toHira_toNat] at h
  unfold Spec.KatakanaLetter
  simp only [Spec.In]
  repeat' split at h
  all_goals omega

theorem governing_mem {a : Str} {g : Char} (h : Spec.governing a = some g) : g ∈ a ∧ g ∉ Spec.chain := by
  unfold Spec.governing at h
  have h1 := List.mem_of_mem_head? (Option.mem_def.2 h)
  have h2 := List.dropWhile_sublist (fun c => decide (c ∈ Spec.chain)) (l := a.reverse)
  refine ⟨List.mem_reverse.1 (h2.subset h1), ?_⟩
  have := List.head?_dropWhile_not (fun c => decide (c ∈ Spec.chain)) a.reverse
  rw [h] at this
  simpa using this

/-- **C36** Text made of regular hiragana syllables, Japanese marks and characters that neither
function converts survives the trip kana → romaji → kana, with all options of `to_romaji` and in both
the normal and the obsolete-kana mode of `to_kana`. -/
theorem C36_roundtrip {std : Std} (hstd : std.Lawful) (o o' : Options)
    (hime : o'.imemode = true → o'.use_obsolete_kana = true)
    (ws : List Str) (hw : ∀ w ∈ ws, Spec.RegularPiece false o'.use_obsolete_kana w) :
    ∃ r, to_romaji_with_opt std ws.flatten o = .ok r ∧ to_kana_with_opt std r o' = .ok ws.flatten := by
  have hfix : ∀ c ∈ ws.flatten, toHira c = c := by
    intro c hc
    obtain ⟨w, h1, h2⟩ := List.mem_flatten.1 hc
    exact hira_piece_fixed (modeOf_ne_ime hime) (by rw [obsOf_modeOf]; exact hw w h1) c h2
  apply round_trip hstd hime ws (fun w h => regular_mono (hw w h))
  · intro a x y b e hx hy
    rw [hfix x (by simp [e])] at hx
    rw [hfix y (by simp [e])] at hy
    refine ⟨hx, ?_⟩
    have : ∀ z ∈ Spec.vowelOrY, ¬ Spec.Katakana z := by decide +kernel
    exact this y hy
  · intro a b e g hg
    obtain ⟨h1, h2⟩ := governing_mem hg
    rcases fixed_not_letter (hfix g (by simp [e, h1])) with h | h | h
    · exact h
    · subst h; exact absurd (by decide) h2
    · subst h; exact absurd (by decide) h2

example : (∀ w ∈ [['し'], ['ん'], ['よ'], ['う'], ['。'], ['っ', 'き', 'ゃ'], ['漢'], ['ん'], ['ー']],
      Spec.RegularPiece false false w) ∧ to_romaji modernStd "しんよう。っきゃ漢んー".toList = .ok "shin'you.kkya漢n-".toList := by
  refine ⟨?_, by decide +kernel⟩
  intro w hw
  simp only [List.mem_cons, List.not_mem_nil, or_false] at hw
  rcases hw with rfl | rfl | rfl | rfl | rfl | rfl | rfl | rfl | rfl
  · exact Or.inl (by decide +kernel)
  · exact Or.inl (by decide +kernel)
  · exact Or.inl (by decide +kernel)
  · exact Or.inl (by decide +kernel)
  · exact Or.inr (Or.inr (Or.inl ⟨_, by decide +kernel, rfl⟩))
  · exact Or.inl (by decide +kernel)
  · exact Or.inr (Or.inr (Or.inr ⟨_, ⟨by decide +kernel, by decide +kernel, by decide +kernel⟩, rfl⟩))
  · exact Or.inl (by decide +kernel)
  · exact Or.inr (Or.inr (Or.inl ⟨_, by decide +kernel, rfl⟩))

/-- **C36** The list of regular pieces is complete: a row of the kana → romaji table converts back
exactly if it is a regular syllable, a mark, or ん before a vowel or ya-row kana. -/
theorem C36_exact {std : Std} (hstd : std.Lawful) : ∀ x ∈ kanaTable,
    (to_kana_with_opt std x.2 {} = .ok x.1 ↔ x.1 ∈ Spec.regularSyllables false ∨ (∃ c ∈ Spec.reversibleMarks, x.1 = [c]) ∨
      ∃ y ∈ Spec.vowelOrY, x.1 = ['ん', y]) := by
  have h : ∀ x ∈ kanaTable, (to_kana_with_opt modernStd x.2 {} = .ok x.1 ↔ x.1 ∈ Spec.regularSyllables false ∨
      (∃ c ∈ Spec.reversibleMarks, x.1 = [c]) ∨ ∃ y ∈ Spec.vowelOrY, x.1 = ['ん', y]) := by decide +kernel
  intro x hx
  rw [← h x hx, to_kana_eq hstd, to_kana_eq modernStd_lawful]

/-- **C36** other hiragana is lost: small kana, ぢ, づ, っ before ち, vowels and the na-row, ゔ -/
theorem C36_irregular : ∀ x ∈ ["っち", "ぢ", "づ", "ぁ", "っな", "っあ", "ゐ", "　"],
    ∀ r, to_romaji modernStd x.toList = .ok r → to_kana modernStd r ≠ .ok x.toList := by
  have h : ∀ x ∈ ["っち", "ぢ", "づ", "ぁ", "っな", "っあ", "ゐ", "　"],
      (to_romaji modernStd x.toList >>= to_kana modernStd) ≠ .ok x.toList := by decide +kernel
  intro x hx r hr h2
  exact h x hx (by rw [hr, ok_bind, h2])

/-- **C57** With `upcase_katakana`, text in both scripts survives the trip, if ン does not stand before a
vowel or ya-row kana, and no long vowel mark follows katakana. -/
theorem C57_roundtrip_both {std : Std} (hstd : std.Lawful) (o o' : Options) (hup : o.upcase_katakana = true)
    (hime : o'.imemode = true → o'.use_obsolete_kana = true)
    (ws : List Str) (hw : ∀ w ∈ ws, Spec.RegularPiece true o'.use_obsolete_kana w)
    (nas : ∀ a x y b, ws.flatten = a ++ x :: y :: b → toHira x = 'ん' → toHira y ∈ Spec.vowelOrY →
      x = 'ん' ∧ ¬ Spec.Katakana y)
    (dash : ∀ a b, ws.flatten = a ++ 'ー' :: b → ∀ g, Spec.governing a = some g → ¬ Spec.KatakanaLetter g) :
    ∃ r, to_romaji_with_opt std ws.flatten o = .ok r ∧ to_kana_with_opt std r o' = .ok ws.flatten :=
  round_trip hstd hime ws (by rw [hup]; exact hw) nas dash

example : (∀ w ∈ [['ミ'], ['ン'], ['か'], ['キ', 'ャ']], Spec.RegularPiece true false w) ∧
    to_romaji_with_opt modernStd "ミンかキャ".toList { upcase_katakana := true } = .ok "MINkaKYA".toList := by
  refine ⟨?_, by decide +kernel⟩
  intro w hw
  simp only [List.mem_cons, List.not_mem_nil, or_false] at hw
  rcases hw with rfl | rfl | rfl | rfl
  · exact Or.inr (Or.inl ⟨rfl, ['み'], by decide +kernel, by decide +kernel⟩)
  · exact Or.inr (Or.inl ⟨rfl, ['ん'], by decide +kernel, by decide +kernel⟩)
  · exact Or.inl (by decide +kernel)
  · exact Or.inr (Or.inl ⟨rfl, ['き', 'ゃ'], by decide +kernel, by decide +kernel⟩)

/-- **C57** Both conditions are needed: ンア, んア, ンあ come back as んア, んあ, んあ, and カー as カア. -/
theorem C57_conditions : ∀ x ∈ [("ンア", "んア"), ("んア", "んあ"), ("ンあ", "んあ"), ("カー", "カア")],
    (to_romaji_with_opt modernStd x.1.toList { upcase_katakana := true } >>= to_kana modernStd) = .ok x.2.toList := by
  decide +kernel

/-! ## C58 -/

theorem romanized_lower {z : Spec.Marked} {r : Str} (h : Spec.Romanized Spec.kanaTable false z r)
    (hz : ∀ x ∈ z, ¬ Spec.AsciiUpper x.1) : ∀ c ∈ r, ¬ Spec.AsciiUpper c := by
  have ht : (kanaTable.all fun x => x.2.all fun c => decide (¬ Spec.AsciiUpper c)) = true := by decide +kernel
  induction h with
  | nil => intro c hc; cases hc
  | hit hk hl _ ih =>
    intro c hc
    rcases List.mem_append.1 hc with hc | hc
    · rw [if_neg (by simp)] at hc
      have := List.all_eq_true.1 ht _ (mem_of_lookup hl)
      have := List.all_eq_true.1 this c hc
      exact decide_eq_true_iff.1 this
    · exact ih (fun x hx => hz x (List.mem_of_mem_drop hx)) c hc
  | miss _ _ ih =>
    intro c hc
    rcases List.mem_cons.1 hc with rfl | hc
    · exact hz _ (by simp)
    · exact ih (fun x hx => hz x (List.mem_cons_of_mem _ hx)) c hc

theorem lower_upper (a : Char) : Spec.asciiLower (Spec.asciiUpper a) = Spec.asciiLower a := by
  rw [asciiLower_eq, asciiUpper_eq]
  apply char_ext
  rw [toAsciiLowercase_toNat, toAsciiLowercase_toNat, aUp_toNat]
  repeat' split
  all_goals omega

theorem hira_flatten_kana {obs : Bool} {hs : List Str} (hw : ∀ h ∈ hs, h ∈ Spec.regularSyllables obs) :
    ∀ c ∈ hs.flatten, Spec.HiraganaLetter c ∧ c ∉ ['ー', 'ゕ', 'ゖ', 'ヵ', 'ヶ', 'ゔ'] := by
  have key : ∀ obs, ∀ h ∈ Spec.regularSyllables obs, ∀ c ∈ h, Spec.HiraganaLetter c ∧ c ∉ ['ー', 'ゕ', 'ゖ', 'ヵ', 'ヶ', 'ゔ'] := by
    intro obs
    cases obs <;> decide +kernel
  intro c hc
  obtain ⟨h, h1, h2⟩ := List.mem_flatten.1 hc
  exact key obs h (hw h h1) c h2

/-- **C58** Kana written in regular syllables, in either script or both, can be recovered in hiragana
and in katakana from its romaji. -/
theorem C58_recover {std : Std} (hstd : std.Lawful) (o o' : Options) (hp : o'.pass_romaji = false)
    (hime : o'.imemode = true → o'.use_obsolete_kana = true) (hs : List Str) (s : Str)
    (hw : ∀ h ∈ hs, h ∈ Spec.regularSyllables o'.use_obsolete_kana) (hsh : s.map toHira = hs.flatten) :
    ∃ r, to_romaji_with_opt std s o = .ok r ∧ to_hiragana_with_opt std r o' = .ok hs.flatten ∧
      to_katakana_with_opt std r o' = .ok (hs.flatten.map toKata) := by
  have hH := hira_flatten_kana hw
  have hS : ∀ c ∈ s, Spec.HiraganaLetter (toHira c) ∧ toHira c ∉ ['ー', 'ゕ', 'ゖ', 'ヵ', 'ヶ', 'ゔ'] := by
    intro c hc
    exact hH _ (by rw [← hsh]; exact List.mem_map_of_mem hc)
  have hSk : ∀ c ∈ s, Spec.Kana c ∧ c ∉ ['ヵ', 'ヶ', 'ゕ', 'ゖ'] := by
    intro c hc
    obtain ⟨h1, h2⟩ := hS c hc
    simp only [List.mem_cons, List.not_mem_nil, or_false, char_eq_iff, Char.reduceToNat, toHira_toNat] at h2
    unfold Spec.HiraganaLetter at h1
    simp only [Spec.In, toHira_toNat] at h1
    rw [specKana_iff]
    simp only [List.mem_cons, List.not_mem_nil, or_false, char_eq_iff, Char.reduceToNat]
    generalize e : (if c.toNat = 12535 then 12431 else _) = z at h1 h2
    repeat' split at e
    all_goals omega
  obtain ⟨r, hr⟩ := C27_total hstd s o
  obtain ⟨r0, hr0, hk0⟩ := C36_roundtrip hstd {} o' hime hs (fun w h => Or.inl (hw w h))
  have hk : katakana_to_hiragana_with_opt std s true = .ok hs.flatten := by
    have hv : 'ヴ' ∉ s := fun h => (hS _ h).2 (by decide +kernel)
    rw [C24_exact_no_vu hstd s true hv, hiraFrom_map s [] ?_, hsh]
    intro a b e
    exact absurd (by decide +kernel) (hS 'ー' (by simp [e])).2
  have hr0' : to_romaji_with_opt std s {} = .ok r0 := by
    rw [C30_hiragana_form hstd s hs.flatten {} rfl hk, hr0]
  have hlow : r.map Spec.asciiLower = r0.map Spec.asciiLower := by
    have := congrArg (List.map Spec.asciiLower) (C31_case hstd s r r0 o {} hr hr0')
    simpa [List.map_map, Function.comp_def, lower_upper] using this
  have hr0l : std.toLowercase r0 = r0 := by
    have ha := C29_ascii hstd s r0 {} hSk hr0'
    have hup : ∀ c ∈ r0, ¬ Spec.AsciiUpper c := by
      have hv : 'ゔ' ∉ hs.flatten ∧ 'ヴ' ∉ hs.flatten :=
        ⟨fun h => (hH _ h).2 (by decide), fun h => absurd (hH _ h).1 (by decide +kernel)⟩
      have hrom := C56_greedy_no_vu hstd _ _ _ hv.1 hv.2 hr0
      rw [marked_shifted (fun a b e => absurd (by decide) (hH 'ー' (by simp [e])).2)] at hrom
      apply romanized_lower hrom
      intro x hx
      obtain ⟨c, hc, rfl⟩ := List.mem_map.1 hx
      have h1 := (hH c hc).1
      unfold Spec.HiraganaLetter at h1
      unfold Spec.AsciiUpper
      simp only [Spec.In, toHira_toNat] at h1 ⊢
      repeat' split
      all_goals omega
    rw [Std.toLowercase, toLowercase_romaji hstd r0 (fun c hc => by
      rw [specRomaji_iff]; left; have := ha c hc; exact this) []]
    conv => rhs; rw [← List.map_id r0]
    apply List.map_congr_left
    intro c hc
    have h1 := ha c hc
    have h2 := hup c hc
    unfold Spec.Ascii at h1
    unfold Spec.AsciiUpper at h2
    simp only [Spec.In] at h2
    have hm : isMacron c = false := by
      rw [Bool.eq_false_iff]
      intro h
      rw [isMacron, List.contains_iff_mem] at h
      simp only [List.mem_cons, List.not_mem_nil, or_false] at h
      omega
    rw [romajiLower, hm]
    apply char_ext
    simp only [Bool.false_eq_true, if_false, id, toAsciiLowercase_toNat]
    rw [if_neg h2]
  have hhira : to_hiragana_with_opt std r o' = .ok hs.flatten := by
    rcases C29_is_romaji hstd s r o hSk hr with h | h
    · subst h
      have : r0 = [] := by simpa using hlow.symm
      subst this
      rw [to_kana_eq hstd, kana_nil] at hk0
      rw [← hk0, to_hiragana_eq hstd]
      unfold hiraP
      rw [if_neg (by rw [hp]; simp), if_neg (by decide), if_neg (by decide)]
      rfl
    · rw [(C40_case hstd r r0 o' h hp hlow).1, to_hiragana_eq hstd]
      have h0 : is_romaji r0 = true := by
        rcases C29_is_romaji hstd s r0 {} hSk hr0' with h' | h'
        · subst h'
          have : r = [] := by simpa using hlow
          subst this
          exact h
        · exact h'
      unfold hiraP
      rw [if_neg (by rw [hp]; simp), if_neg (by rw [romaji_not_mixed h0]; simp), if_pos (by rw [h0]; rfl), hr0l,
        ← to_kana_eq hstd, hk0]
  refine ⟨r, hr, hhira, ?_⟩
  rcases C29_is_romaji hstd s r o hSk hr with h | h
  · subst h
    have : r0 = [] := by simpa using hlow.symm
    subst this
    rw [to_kana_eq hstd, kana_nil] at hk0
    rw [← Except.ok.inj hk0, to_katakana_eq hstd]
    unfold kataP
    rw [if_neg (by rw [hp]; simp), if_neg (by decide)]
    rfl
  · rw [C40_compose hstd r o' h, hhira, ok_bind, C22_charwise]

example : (∀ h ∈ [['し'], ['ん'], ['よ'], ['っ', 'き', 'ゃ']], h ∈ Spec.regularSyllables false) ∧
    "シんヨッきャ".toList.map toHira = [['し'], ['ん'], ['よ'], ['っ', 'き', 'ゃ']].flatten ∧
    to_romaji_with_opt modernStd "シんヨッきャ".toList { upcase_katakana := true } = .ok "SHIn'yokkya".toList := by
  decide +kernel

end WanaKana
