import Verif.Props.CanonicalAll
/-! # A run of vowels behind v gets longer with every trip (for C122) -/

namespace WanaKana
open KNode RNode
open Spec (toHira kanaTable)

/-- v, a vowel other than u, and `j` more vowels, somewhere in `r` -/
def Grown (j : Nat) (r : Str) : Prop :=
  ∃ P v t Q, v ∈ vowelRows ∧ (∀ d ∈ t, d ∈ "aiueo".toList) ∧ t.length = j ∧ r = P ++ 'v' :: v.1 :: (t ++ Q)

theorem Grown.length {j : Nat} {r : Str} (h : Grown j r) : j + 1 < r.length := by
  obtain ⟨P, v, t, Q, _, _, rfl, rfl⟩ := h
  simp only [List.length_append, List.length_cons]
  omega

def bigVowel (c : Char) : Char :=
  if c = 'a' then 'あ' else if c = 'i' then 'い' else if c = 'u' then 'う' else if c = 'e' then 'え' else 'お'

theorem kana_vowel (m : Mode) : ("aiueo".toList.all fun c => decide (kana m [c] = [bigVowel c])) = true := by
  cases m <;> decide +kernel

theorem kana_vowels (m : Mode) (Q : Str) : ∀ t : Str, (∀ d ∈ t, d ∈ "aiueo".toList) →
    kana m (t ++ Q) = t.map bigVowel ++ kana m Q := by
  intro t
  induction t with
  | nil => intro _; rfl
  | cons c t ih =>
    intro h
    have hc := h c List.mem_cons_self
    have h1 := of_decide_eq_true (List.all_eq_true.1 (kana_vowel m) c hc)
    have h2 : ∀ c ∈ "aiueo".toList, toAsciiLowercase c ∉ "bcdfghjklmnpqrstvwxyz".toList := by decide
    have := kana_append (m := m) [c] (t ++ Q) (cut_of_last (c := c) rfl (h2 c hc))
    rw [List.cons_append, ← List.singleton_append, this, h1, ih fun d hd => h d (List.mem_cons_of_mem _ hd)]
    rfl

theorem vu_back_all (m : Mode) : ∀ v ∈ vowelRows,
    kana m ['v', v.1] = ['ゔ', v.2.1] ∧ kana m ['v', 'v', v.1] = ['っ', 'ゔ', v.2.1] := by
  cases m <;> decide +kernel

theorem V_back (m : Mode) : ∀ v ∈ vowelRows, kana m ['V', 'v', v.1] = ['っ', 'ゔ', v.2.1] := by
  cases m <;> decide +kernel

theorem vowelRow_last : ∀ v ∈ vowelRows, toAsciiLowercase v.1 ∉ "bcdfghjklmnpqrstvwxyz".toList := by decide

/-- v inside of a key only comes right after v -/
theorem v_keys {m : Mode} {c : Char} {k out : Str} {n : KNode} (hw : (tree m).walk (c :: k) = some n)
    (ho : n.output = some out) (hv : 'v' ∈ k) : c = 'v' ∧ 'v' ∉ k.tail := by
  have h : allModes (fun _ x => match x.2.output, x.1 with
      | some _, c :: k => decide ('v' ∈ k → c = 'v' ∧ 'v' ∉ k.tail)
      | _, _ => true) = true := by
    decide +kernel
  have := allModes_walk h hw
  simp only [ho, decide_eq_true_iff] at this
  exact this hv

theorem low_v {c : Char} (h : toAsciiLowercase c = 'v') : c = 'v' ∨ c = 'V' := by
  rw [char_eq_iff, toAsciiLowercase_toNat] at h
  rw [char_eq_iff, char_eq_iff]
  simp only [Char.reduceToNat] at h ⊢
  split at h <;> omega

theorem grown_kana (m : Mode) {v : Char × Char × Char} (hv : v ∈ vowelRows) {t : Str}
    (ht : ∀ d ∈ t, d ∈ "aiueo".toList) (Q : Str) (P : Str) :
    ∃ K1 K2, kana m (P ++ 'v' :: v.1 :: (t ++ Q)) = K1 ++ 'ゔ' :: v.2.1 :: (t.map bigVowel ++ K2) := by
  have hrest : ∀ {u K : Str}, u.getLast? = some v.1 → kana m u = K ++ ['ゔ', v.2.1] →
      kana m (u ++ (t ++ Q)) = K ++ 'ゔ' :: v.2.1 :: (t.map bigVowel ++ kana m Q) := by
    intro u K hu hk
    rw [kana_append _ _ (cut_of_last hu (vowelRow_last v hv)), hk, kana_vowels m Q t ht, List.append_assoc]
    rfl
  induction P using list_strong with
  | _ P ih =>
    cases P with
    | nil => exact ⟨[], _, hrest (u := ['v', v.1]) rfl (vu_back_all m v hv).1⟩
    | cons c P =>
      rw [List.cons_append]
      obtain ⟨n, k, hst⟩ := exists_stops (tree m) (c :: (P ++ 'v' :: v.1 :: (t ++ Q)))
      cases ho : n.output with
      | none =>
        obtain ⟨K1, K2, e⟩ := ih P (by simp)
        exact ⟨c :: K1, K2, by rw [kana_miss hst ho, e]; rfl⟩
      | some out =>
        obtain ⟨a, t', e, _, hw, hkana⟩ := hit_split hst ho
        have hin : ∀ b, P = a ++ b → t' = b ++ 'v' :: v.1 :: (t ++ Q) →
            ∃ K1 K2, kana m (c :: (P ++ 'v' :: v.1 :: (t ++ Q))) = K1 ++ 'ゔ' :: v.2.1 :: (t.map bigVowel ++ K2) := by
          rintro b rfl rfl
          obtain ⟨K1, K2, e⟩ := ih b (by simp only [List.length_cons, List.length_append]; omega)
          exact ⟨styled (c :: a) out ++ K1, K2, by rw [hkana, e, List.append_assoc]⟩
        rcases List.append_eq_append_iff.1 e with ⟨b, h1, h2⟩ | ⟨b, h1, h2⟩
        · cases b with
          | nil => exact hin [] (by rw [h1]; simp) (by simpa using h2.symm)
          | cons d b =>
            injection h2 with hd h2
            subst hd
            have h3 : low a = low P ++ 'v' :: low b := by rw [h1]; simp [low]; decide
            rw [h3] at hw
            obtain ⟨h4, h5⟩ := v_keys hw ho (by simp)
            have hP : P = [] := by
              cases P with
              | nil => rfl
              | cons p P => exact absurd (by simp [low]) h5
            subst hP
            rw [List.nil_append]
            rcases low_v h4 with rfl | rfl
            · exact ⟨['っ'], _, hrest (u := ['v', 'v', v.1]) rfl (vu_back_all m v hv).2⟩
            · exact ⟨['っ'], _, hrest (u := ['V', 'v', v.1]) rfl (V_back m v hv)⟩
        · exact hin b h1 h2

/-! ## pieces -/

theorem rpiece_no_vu {p : Str × Str} (h : RPiece p) : 'ゔ' ∉ p.1 := by
  rcases h with h | ⟨c, rfl, h | h⟩
  · have : (kanaTable.all fun p => !p.1.contains 'ゔ') = true := by decide +kernel
    simpa [List.contains_eq_mem] using List.all_eq_true.1 this p h
  · intro hm
    rw [← List.mem_singleton.1 hm] at h
    exact absurd h.1.2.2.2 (by decide)
  · intro hm
    rw [← List.mem_singleton.1 hm] at h
    revert h; decide

/-- the piece with ゔ ends there -/
theorem vu_piece {x y : Char} (R : Str) : ∀ (ps : List (Str × Str)) (H : Str), (∀ p ∈ ps, APiece x y p) →
    (ps.map Prod.fst).flatten = H ++ 'ゔ' :: R → ∃ l p r, ps = l ++ p :: r ∧ VPiece x y p ∧ (r.map Prod.fst).flatten = R := by
  intro ps
  induction ps with
  | nil => intro H _ e; simp at e
  | cons p ps ih =>
    intro H hp e
    rw [List.map_cons, List.flatten_cons] at e
    have hps : ∀ q ∈ ps, APiece x y q := fun q hq => hp q (List.mem_cons_of_mem _ hq)
    rcases List.append_eq_append_iff.1 e with ⟨b, h1, h2⟩ | ⟨b, h1, h2⟩
    · obtain ⟨l, q, r, rfl, h3, h4⟩ := ih b hps h2
      exact ⟨p :: l, q, r, rfl, h3, h4⟩
    · cases b with
      | nil =>
        obtain ⟨l, q, r, rfl, h3, h4⟩ := ih [] hps (by simpa using h2.symm)
        exact ⟨p :: l, q, r, rfl, h3, h4⟩
      | cons d b =>
        injection h2 with hd h2
        subst hd
        rcases hp p List.mem_cons_self with h0 | h0 | ⟨c, rfl, hc⟩
        · exact absurd (by rw [h1]; simp) (rpiece_no_vu h0)
        · refine ⟨[], p, ps, rfl, h0, ?_⟩
          have hb : b = [] := by
            rcases h0 with rfl | rfl
            · cases H with
              | nil => injection h1 with _ h1; exact h1.symm
              | cons e H => injection h1 with _ h1; simp at h1
            · cases H with
              | nil => injection h1 with h1 _; exact absurd h1 (by decide)
              | cons e H =>
                injection h1 with _ h1
                cases H with
                | nil => injection h1 with _ h1; exact h1.symm
                | cons e H => injection h1 with _ h1; simp at h1
          rw [h2, hb]; rfl
        · exfalso
          cases H with
          | nil =>
            injection h1 with h1 _
            have := lpiece_ascii hc
            rw [h1] at this
            revert this; decide
          | cons e H => injection h1 with _ h1; simp at h1

/-- the vowels in kana and in romaji -/
def vowelKana : List (Char × Char) := [('あ', 'a'), ('い', 'i'), ('う', 'u'), ('え', 'e'), ('お', 'o'),
  ('ぁ', 'a'), ('ぃ', 'i'), ('ぅ', 'u'), ('ぇ', 'e'), ('ぉ', 'o')]

theorem vowel_rows : (kanaTable.all fun p => vowelKana.all fun v => p.1.head? != some v.1 || p == ([v.1], [v.2])) = true := by
  decide +kernel

theorem vowelKana_facts : ∀ v ∈ vowelKana,
    v.1 ≠ 'ゔ' ∧ v.1 ≠ 'っ' ∧ 128 ≤ v.1.toNat ∧ romajiKey v.1 = true ∧ v.1 ∉ latinMarks := by
  decide +kernel

/-- pieces that begin with vowels -/
theorem vowel_pieces {x y : Char} (H : Str) : ∀ (L : List (Char × Char)), (∀ v ∈ L, v ∈ vowelKana) →
    ∀ ps : List (Str × Str), (∀ p ∈ ps, APiece x y p) → (ps.map Prod.fst).flatten = L.map Prod.fst ++ H →
    ∃ Q, (ps.map Prod.snd).flatten = L.map Prod.snd ++ Q := by
  intro L
  induction L with
  | nil => intro _ ps _ _; exact ⟨_, rfl⟩
  | cons v L ih =>
    intro hL ps hp e
    have hv := hL v List.mem_cons_self
    cases ps with
    | nil => cases e
    | cons p ps =>
      have hps : ∀ q ∈ ps, APiece x y q := fun q hq => hp q (List.mem_cons_of_mem _ hq)
      obtain ⟨k1, k2, k3, k4, k5⟩ := vowelKana_facts v hv
      rw [List.map_cons, List.map_cons, List.flatten_cons, List.cons_append] at e
      have hp1 : p = ([v.1], [v.2]) := by
        rcases hp p List.mem_cons_self with h0 | h0 | ⟨c, rfl, hc⟩
        · have hne := RPiece.ne_nil (x := x) (y := y) (Or.inl h0)
          rcases h0 with h0 | ⟨c, rfl, h0⟩
          · have h2 := List.all_eq_true.1 (List.all_eq_true.1 vowel_rows p h0) v hv
            simp only [Bool.or_eq_true, bne_iff_ne, beq_iff_eq] at h2
            refine h2.resolve_left fun h3 => h3 ?_
            cases hp : p.1 with
            | nil => exact absurd hp hne
            | cons c q => rw [hp] at e; injection e with e _; rw [e]; rfl
          · exfalso
            injection e with e _
            subst e
            rcases h0 with h0 | h0
            · rw [h0.1.2.2.1] at k4; cases k4
            · exact k5 h0
        · exfalso
          rcases h0 with rfl | rfl
          · injection e with e _; exact k1 e.symm
          · injection e with e _; exact k2 e.symm
        · exfalso
          injection e with e _
          subst e
          have := lpiece_ascii hc; omega
      subst hp1
      injection e with _ e
      obtain ⟨Q, hQ⟩ := ih (fun w hw => hL w (List.mem_cons_of_mem _ hw)) ps hps e
      exact ⟨Q, by rw [List.map_cons, List.flatten_cons, hQ]; rfl⟩

/-- the kana shift copies hiragana -/
theorem k2hP_copied (std : Std) (K : Str) : ∀ (M : Str) (prev : Option Char), (∀ c ∈ M, is_char_katakana c = false) →
    ∃ H, k2hP std true prev (M ++ K) = M ++ H := by
  intro M
  induction M with
  | nil => intro prev _; exact ⟨_, rfl⟩
  | cons c M ih =>
    intro prev h
    have hc := h c List.mem_cons_self
    have ha : ¬ is_char_katakana c = true := by simp [hc]
    have ha' := mt is_char_katakana_iff.2 ha
    have hk : ¬ keeps c = true := by rw [keeps_iff]; omega
    have hd : ¬ isDash c = true := by rw [isDash_iff]; omega
    obtain ⟨H, e⟩ := ih none fun d hd => h d (List.mem_cons_of_mem _ hd)
    exact ⟨H, by rw [List.cons_append, k2hP_cons, if_neg hk, if_neg hd, if_neg ha, e]; rfl⟩

/-- one trip makes the run longer -/
theorem grown_trip {std : Std} (hstd : std.Lawful) (m : Mode) (o : Options) (hu : o.upcase_katakana = false)
    {x y : Char} (hx : to_romaji_with_opt std "ゔ".toList o = .ok ['v', x]) (hxu : x ≠ 'u')
    (hy : to_romaji_with_opt std "っゔ".toList o = .ok ['v', 'v', y]) (hyu : y ≠ 'u') {j : Nat} {r : Str} (h : Grown j r) :
    Grown (j + 1) (romH std (k2hP std true none (kana m r))) := by
  obtain ⟨P, v, t, Q, hv, ht, hj, rfl⟩ := h
  obtain ⟨K1, K2, hk⟩ := grown_kana m hv ht Q P
  obtain ⟨hxv, hyv, ps, e0, hps, hsuf⟩ := text_pieces hstd (kana m (P ++ 'v' :: v.1 :: (t ++ Q))) o hu hx hxu hy hyu
  have hM : ∀ c ∈ v.2.1 :: t.map bigVowel, is_char_katakana c = false := by
    intro c hc
    rcases List.mem_cons.1 hc with rfl | hc
    · have : ∀ v ∈ vowelRows, is_char_katakana v.2.1 = false := by decide
      exact this v hv
    · obtain ⟨d, hd, rfl⟩ := List.mem_map.1 hc
      have : ∀ d ∈ "aiueo".toList, is_char_katakana (bigVowel d) = false := by decide
      exact this d (ht d hd)
  obtain ⟨H2, e1⟩ := k2hP_copied std K2 ('ゔ' :: v.2.1 :: t.map bigVowel) (k2hPrev none K1) (by
    intro c hc
    rcases List.mem_cons.1 hc with rfl | hc
    · decide
    · exact hM c hc)
  have e2 : k2hP std true none (kana m (P ++ 'v' :: v.1 :: (t ++ Q))) =
      k2hP std true none K1 ++ 'ゔ' :: (v.2.1 :: t.map bigVowel ++ H2) := by
    rw [hk, show K1 ++ 'ゔ' :: v.2.1 :: (t.map bigVowel ++ K2) = K1 ++ (('ゔ' :: v.2.1 :: t.map bigVowel) ++ K2) from rfl,
      k2hP_append, e1]
    rfl
  obtain ⟨l, p, r, rfl, hp, hr⟩ := vu_piece _ ps _ hps (e0.symm.trans e2)
  have hL : (v.2.1 :: t.map bigVowel) = ((v.2.1, v.1) :: t.map fun d => (bigVowel d, d)).map Prod.fst := by
    rw [List.map_cons, List.map_map]; rfl
  rw [hL] at hr
  obtain ⟨Q', hQ'⟩ := vowel_pieces (x := x) (y := y) H2 ((v.2.1, v.1) :: t.map fun d => (bigVowel d, d)) (by
    intro w hw
    rcases List.mem_cons.1 hw with rfl | hw
    · have : ∀ v ∈ vowelRows, (v.2.1, v.1) ∈ vowelKana := by decide
      exact this v hv
    · obtain ⟨d, hd, rfl⟩ := List.mem_map.1 hw
      have : ∀ d ∈ "aiueo".toList, (bigVowel d, d) ∈ vowelKana := by decide
      exact this d (ht d hd)) r (fun q hq => hps q (by simp [hq])) hr
  have hs : ((v.2.1, v.1) :: t.map fun d => (bigVowel d, d)).map Prod.snd = v.1 :: t := by
    rw [List.map_cons, List.map_map]
    congr 1
    exact List.map_id _
  rw [hs] at hQ'
  have hvt : ∀ d ∈ v.1 :: t, d ∈ "aiueo".toList := by
    intro d hd
    rcases List.mem_cons.1 hd with rfl | hd
    · have : ∀ v ∈ vowelRows, v.1 ∈ "aiueo".toList := by decide
      exact this v hv
    · exact ht d hd
  have hout := hsuf [] (l ++ p :: r) rfl
  rw [e0, hout, List.map_append, List.flatten_append, List.map_cons, List.flatten_cons, hQ']
  rcases hp with rfl | rfl
  · obtain ⟨w, hw, rfl⟩ := vowelRow_of hxv hxu
    exact ⟨_, w, v.1 :: t, Q', hw, hvt, by simp [hj], rfl⟩
  · obtain ⟨w, hw, rfl⟩ := vowelRow_of hyv hyu
    exact ⟨(l.map Prod.snd).flatten ++ ['v'], w, v.1 :: t, Q', hw, hvt, by simp [hj], by simp⟩

/-- ゔ starts a run -/
theorem grown_vu {std : Std} (hstd : std.Lawful) (o : Options) (hu : o.upcase_katakana = false)
    {x y : Char} (hx : to_romaji_with_opt std "ゔ".toList o = .ok ['v', x]) (hxu : x ≠ 'u')
    (hy : to_romaji_with_opt std "っゔ".toList o = .ok ['v', 'v', y]) (hyu : y ≠ 'u') {k : Str}
    (h : 'ゔ' ∈ k2hP std true none k) : Grown 0 (romH std (k2hP std true none k)) := by
  obtain ⟨hxv, hyv, ps, e0, hps, hsuf⟩ := text_pieces hstd k o hu hx hxu hy hyu
  obtain ⟨H, R, e⟩ := List.append_of_mem h
  obtain ⟨l, p, r, rfl, hp, hr⟩ := vu_piece _ ps _ hps (e0.symm.trans e)
  have hout := hsuf [] (l ++ p :: r) rfl
  rw [e0, hout, List.map_append, List.flatten_append, List.map_cons, List.flatten_cons]
  rcases hp with rfl | rfl
  · obtain ⟨w, hw, rfl⟩ := vowelRow_of hxv hxu
    exact ⟨_, w, [], _, hw, by simp, rfl, rfl⟩
  · obtain ⟨w, hw, rfl⟩ := vowelRow_of hyv hyu
    exact ⟨(l.map Prod.snd).flatten ++ ['v'], w, [], _, hw, by simp, rfl, by simp; rfl⟩

end WanaKana
