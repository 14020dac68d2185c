import Verif.Props.Convert2
import Verif.Props.Convert4
import Verif.Props.KanaShift2
import Verif.Proofs.ToRomaji
/-! # C94: going through the other script -/

namespace WanaKana
open KNode

/-! ## what a second conversion does to the romaji left over -/

/-- `n` before っ is settled, unless in IME mode -/
def settleBy (ime : Bool) (r : Str) : Str := if ime then r else Spec.settleN r

theorem settleBy_append_ge (b : Bool) {a : Str} (h : ∀ c ∈ a, 0x2100 ≤ c.toNat) (s : Str) :
    settleBy b (a ++ s) = a ++ settleBy b s := by
  cases b
  · exact settleN_append_ge h s
  · rfl

theorem settleBy_length (b : Bool) (s : Str) : (settleBy b s).length = s.length := by
  cases b
  · exact settleN_length s
  · rfl

theorem settleBy_cut (b : Bool) (a : Str) (d : Char) : ∃ X : Str, X.length = a.length ∧ ∀ d', 0x2100 ≤ d'.toNat →
    ((d' = 'っ' ∨ d' = 'ッ') ↔ (d = 'っ' ∨ d = 'ッ')) → ∀ t, settleBy b (a ++ d' :: t) = X ++ d' :: settleBy b t := by
  cases b
  · exact settleN_cut a d
  · exact ⟨a, rfl, fun _ _ _ _ => rfl⟩

theorem settleBy_not_mixed (b : Bool) {s : Str} (h : is_mixed s = false) : settleBy b s = s := by
  cases b
  · exact settleN_not_mixed h
  · rfl

theorem kana_settle (m : Mode) (s : Str) : kana m (kana m s) = settleBy (decide (m = .ime)) (kana m s) := by
  by_cases h : m = .ime
  · rw [kana_idem m s (Or.inl h)]; simp [settleBy, h]
  · rw [kana_kana h]; simp [settleBy, h]

/-- where converting only settles `n`, it still does after a change of script -/
theorem kana_through {m : Mode} {b : Bool} (G : Option Char → Str → Str) (Ok : Option Char → Prop)
    (hnil : ∀ p, G p [] = [])
    (hstep : ∀ p c s, Ok p → 0x2100 ≤ c.toNat → ∃ x p', G p (c :: s) = x ++ G p' s ∧ Ok p' ∧ ∀ d ∈ x, 0x2100 ≤ d.toNat)
    (hfirst : ∀ c s, 0x2100 ≤ c.toNat → ∃ d p', G none (c :: s) = d :: G p' s ∧ Ok p' ∧ 0x2100 ≤ d.toNat ∧
      ((d = 'っ' ∨ d = 'ッ') ↔ (c = 'っ' ∨ c = 'ッ')))
    (hlow : ∀ a s p, (∀ c ∈ a, c.toNat < 0x2100) → a ≠ [] → G p (a ++ s) = a ++ G none s)
    (r : Str) : ∀ p, Ok p → kana m r = settleBy b r → kana m (G p r) = settleBy b (G p r) := by
  induction r using list_strong with
  | _ r ih =>
    intro prev hok h
    cases r with
    | nil => rw [hnil]; exact h
    | cons c r =>
      by_cases hc : 0x2100 ≤ c.toNat
      · obtain ⟨x, prev', h1, h2, h3⟩ := hstep prev c r hok hc
        have e1 := kana_of_ge (m := m) (s := [c]) (by simpa using hc) r
        have e2 := settleBy_append_ge b (a := [c]) (by simpa using hc) r
        simp only [List.singleton_append] at e1 e2
        rw [e1, e2, List.cons.injEq] at h
        rw [h1, kana_of_ge h3, settleBy_append_ge b h3, ih r (by simp) prev' h2 h.2]
      · obtain ⟨a, rest, hr, ha, hrest⟩ : ∃ a rest, c :: r = a ++ rest ∧ (∀ x ∈ a, x.toNat < 0x2100) ∧
            ∀ d, rest.head? = some d → 0x2100 ≤ d.toNat := by
          refine ⟨(c :: r).takeWhile (fun x => decide (x.toNat < 0x2100)),
            (c :: r).dropWhile (fun x => decide (x.toNat < 0x2100)), List.takeWhile_append_dropWhile.symm, ?_, ?_⟩
          · intro x hx
            have := List.all_eq_true.1 (List.all_takeWhile (p := fun x : Char => decide (x.toNat < 0x2100)) (l := c :: r)) x hx
            simpa using this
          · intro d hd
            have := List.head?_dropWhile_not (fun x : Char => decide (x.toNat < 0x2100)) (c :: r)
            rw [hd] at this
            simpa using this
        have hane : a ≠ [] := by
          rintro rfl
          simp only [List.nil_append] at hr
          subst hr
          exact hc (hrest c rfl)
        rw [hr] at h ih ⊢
        rw [hlow a rest prev ha hane]
        cases rest with
        | nil => rw [hnil]; simpa using h
        | cons d t =>
          have hd := hrest d rfl
          obtain ⟨X, hX, hset⟩ := settleBy_cut b a d
          have cut : ∀ (x : Char) (hx : 0x2100 ≤ x.toNat) (t : Str), kana m (a ++ x :: t) = kana m a ++ x :: kana m t := by
            intro x hx t
            rw [kana_append _ _ (cut_of_inert (inert_of_ge hx))]
            have := kana_of_ge (m := m) (s := [x]) (by simpa using hx) t
            simp only [List.singleton_append] at this
            rw [this]
          rw [cut d hd, hset d hd Iff.rfl] at h
          have l1 := kana_length m a
          have l2 := kana_length m t
          have l3 := congrArg List.length h
          simp only [List.length_append, List.length_cons, settleBy_length] at l3
          have hl : (kana m a).length = X.length := by omega
          obtain ⟨g1, g2⟩ := List.append_inj h hl
          rw [List.cons.injEq] at g2
          obtain ⟨d', prev', f1, f2, f3, f4⟩ := hfirst d t hd
          rw [f1, cut d' f3, hset d' f3 f4, g1, ih t (by simp; omega) prev' f2 g2.2]

theorem kana_through_k2h {std : Std} (hstd : std.Lawful) {m : Mode} {b : Bool} {r : Str} (h : kana m r = settleBy b r) :
    kana m (k2hP std false none r) = settleBy b (k2hP std false none r) :=
  kana_through (k2hP std false) PrevOk (fun p => by cases p <;> rfl)
    (fun _ _ s hok hc => k2hP_step hstd hok hc s) (fun _ s hc => k2hP_first std hc s)
    (fun a s p ha hne => k2hP_low std a s ha p hne) r none prevOk_none h

theorem h2kP_low {c : Char} (h : c.toNat < 0x2100) : h2kP c = c := by
  rw [char_eq_iff, h2kP_toNat, if_neg (by omega)]

theorem kana_through_h2k {m : Mode} {b : Bool} {r : Str} (h : kana m r = settleBy b r) :
    kana m (r.map h2kP) = settleBy b (r.map h2kP) :=
  kana_through (fun _ s => s.map h2kP) (fun _ => True) (fun _ => rfl)
    (fun p c s _ hc => ⟨[h2kP c], p, rfl, trivial, by simpa using h2kP_ge hc⟩)
    (fun c s hc => ⟨h2kP c, none, rfl, trivial, h2kP_ge hc, h2kP_tsu_iff⟩)
    (fun a s p ha _ => by
      rw [List.map_append]
      congr 1
      conv => rhs; rw [← List.map_id a]
      exact List.map_congr_left fun c hc => h2kP_low (ha c hc)) r none trivial h

theorem mem_k2hP_nonkana {std : Std} (hstd : std.Lawful) {r : Str} {c : Char} (hc : c ∈ k2hP std false none r)
    (hn : ¬ Spec.Kana c) : c ∈ r := by
  have hf := filter_nonkana hstd false r prevOk_none
  have h1 : c ∈ (k2hP std false none r).filter (fun c => ¬ Spec.Kana c) := by simp [hn, hc]
  rw [hf] at h1
  exact (List.mem_filter.1 h1).1

theorem k2hP_no_kana {std : Std} (hstd : std.Lawful) {r : Str} (h : ∀ c ∈ r, ¬ Spec.Kana c) : k2hP std false none r = r := by
  have := C23_unchanged hstd r false (fun c hc hk => absurd (katakana_is_kana hk) (h c hc))
  rw [k2h_eq hstd] at this
  exact Except.ok.inj this

/-- `to_hiragana` on a text that `to_kana` only settles -/
theorem hiraP_settle {std : Std} (hstd : std.Lawful) {r : Str} {o : Options} (hp : ¬ o.pass_romaji = true)
    (hset : ∀ c ∈ r, Settled std c) {b : Bool} (hfix : kana (modeOf o) r = settleBy b r) :
    hiraP std r o = settleBy b (k2hP std false none r) := by
  have hsub : ∀ c ∈ k2hP std false none r, ¬ Spec.Kana c → c ∈ r := fun c hc hn => mem_k2hP_nonkana hstd hc hn
  have hnok : (∀ c ∈ r, ¬ Spec.Kana c) → k2hP std false none r = r := k2hP_no_kana hstd
  by_cases hm : is_mixed r = true
  · have hs2 : ∀ c ∈ k2hP std false none r, Settled std c := by
      intro c hc
      by_cases hk : Spec.Kana c
      · apply settled_uncased hstd
        rw [specKana_iff] at hk
        unfold Uncased; omega
      · exact hset c (hsub c hc hk)
    unfold hiraP
    rw [if_neg hp, if_pos hm, toLowercase_id hs2, kana_through_k2h hstd hfix]
  · have hm' := hm
    rw [C04_is_mixed] at hm'
    replace hm' : (∀ c ∈ r, ¬ Spec.Kana c) ∨ ∀ c ∈ r, ¬ Spec.Romaji c := by
      by_cases hk : ∃ c ∈ r, Spec.Kana c
      · exact Or.inr fun c hc h => hm' ⟨hk, c, hc, h⟩
      · exact Or.inl fun c hc h => hk ⟨c, hc, h⟩
    have hrk : settleBy b (k2hP std false none r) = k2hP std false none r := by
      apply settleBy_not_mixed
      rw [Bool.eq_false_iff, Ne, C04_is_mixed]
      rintro ⟨⟨k, hk, hkk⟩, c, hc, hcr⟩
      have hcn : ¬ Spec.Kana c := by
        rw [specKana_iff]; rw [specRomaji_iff] at hcr
        simp only [List.mem_cons, List.not_mem_nil, or_false] at hcr
        omega
      rcases hm' with h | h
      · rw [hnok h] at hk
        exact h k hk hkk
      · exact h c (hsub c hc hcn) hcr
    by_cases hr : (is_romaji r || ((r.head?).map is_char_english_punctuation).getD false) = true
    · have hno : ∀ c ∈ r, ¬ Spec.Kana c := by
        rcases hm' with h | h
        · exact h
        · exfalso
          rw [Bool.or_eq_true] at hr
          rcases hr with hr | hr
          · rw [C01_is_romaji] at hr
            obtain ⟨c, hc⟩ := List.exists_mem_of_ne_nil _ hr.1
            exact h c hc (hr.2 c hc)
          · rw [head_punct_iff'] at hr
            obtain ⟨c, hc, hcp⟩ := hr
            cases r with
            | nil => cases hc
            | cons d r =>
              simp at hc; subst hc
              have hcq : d ∈ ['‘', '’', '“', '”'] := by
                rcases hcp with g | g | g | g | g
                iterate 4
                  · exfalso
                    refine h d List.mem_cons_self ?_
                    rw [specRomaji_iff]
                    have := g.2
                    omega
                · exact g
              obtain ⟨x, t, hx, hge⟩ := kana_quote (modeOf o) hcq r
              have hst : ∃ l, settleBy b (d :: r) = d :: l := by
                cases b
                · refine ⟨Spec.settleN r, settleN_cons_of ?_⟩
                  intro _ _ _
                  simp only [List.mem_cons, List.not_mem_nil, or_false] at hcq
                  rcases hcq with rfl | rfl | rfl | rfl <;> decide
                · exact ⟨r, rfl⟩
              obtain ⟨l, hl⟩ := hst
              rw [hfix, hl, List.cons.injEq] at hx
              rw [← hx.1] at hge
              simp only [List.mem_cons, List.not_mem_nil, or_false] at hcq
              rcases hcq with rfl | rfl | rfl | rfl <;> exact absurd hge (by decide)
      unfold hiraP
      rw [if_neg hp, if_neg hm, if_pos hr, toLowercase_id hset, hfix, hnok hno]
    · unfold hiraP
      rw [if_neg hp, if_neg hm, if_neg hr, hrk]

/-- `to_katakana` on a text that `to_kana` only settles -/
theorem kataP_settle {std : Std} {r : Str} {o : Options} (hp : ¬ o.pass_romaji = true)
    (hset : ∀ c ∈ r, Settled std c) {b : Bool} (hfix : kana (modeOf o) r = settleBy b r) :
    kataP std r o = (settleBy b r).map h2kP := by
  unfold kataP
  rw [if_neg hp]
  split
  · rw [toLowercase_id hset, hfix]
  · next h =>
    rw [Bool.or_eq_true, not_or] at h
    rw [settleBy_not_mixed b (by simpa using h.2)]

/-! ## the shift to katakana and back -/

/-- what becomes of a long vowel mark -/
def gap (std : Std) : Option Char → Str
  | none => ['ー']
  | some p => longOut std false 'ー' p

theorem k2hP_dash (std : Std) (prev : Option Char) (s : Str) :
    k2hP std false prev ('ー' :: s) = gap std prev ++ k2hP std false prev s := by
  rw [k2hP_cons, if_neg (by decide), if_pos (by decide)]
  cases prev <;> rfl

theorem isDash_eq {c : Char} (h : isDash c = true) : c = 'ー' := by
  rw [char_eq_iff]; exact isDash_iff.1 h

theorem k2hP_congr (std : Std) (s : Str) : ∀ {a b}, gap std a = gap std b →
    k2hP std false a s = k2hP std false b s ∧ gap std (k2hPrev a s) = gap std (k2hPrev b s) := by
  induction s with
  | nil => intro a b h; exact ⟨by cases a <;> cases b <;> rfl, h⟩
  | cons c s ih =>
    intro a b h
    by_cases hk : keeps c = true
    · rw [k2hP_cons, k2hP_cons, if_pos hk, if_pos hk, k2hPrev, k2hPrev, if_pos (by simp [hk]), if_pos (by simp [hk]),
        (ih h).1]
      exact ⟨rfl, (ih h).2⟩
    · by_cases hd : isDash c = true
      · cases isDash_eq hd
        rw [k2hP_dash, k2hP_dash, k2hPrev, k2hPrev, if_pos (by decide), if_pos (by decide), (ih h).1, h]
        exact ⟨rfl, (ih h).2⟩
      · have e : ∀ x, k2hPrev x (c :: s) = if is_char_katakana c then k2hPrev (some (k2hChar c)) s else k2hPrev none s := by
          intro x
          rw [k2hPrev, if_neg (by simp [hk, hd])]
        rw [k2hP_cons, k2hP_cons, if_neg hk, if_neg hk, if_neg hd, if_neg hd, e, e]
        split <;> exact ⟨rfl, rfl⟩

/-- the vowel written for a long vowel mark has itself as vowel -/
theorem gap_gap {std : Std} (hstd : std.Lawful) {p v : Char} (h1 : 0x3041 ≤ p.toNat) (h2 : p.toNat ≤ 0x3094)
    (h : v ∈ gap std (some p)) : gap std (some p) = [v] ∧ gap std (some v) = [v] ∧ v ∈ ['あ', 'い', 'う', 'え'] := by
  have hg : gap std (some p) = Spec.longVowelV (vuOf std) false p := longOut_eqV hstd h1 h2 false 'ー'
  have hv : gap std (some p) = [v] ∧ v ∈ ['あ', 'い', 'う', 'え'] := by
    rw [hg] at h ⊢
    unfold Spec.longVowelV Spec.longVowel at h ⊢
    simp only [Bool.false_eq_true, if_false] at h ⊢
    revert h
    repeat' split
    all_goals simp
    all_goals rintro rfl; simp
  refine ⟨hv.1, ?_, hv.2⟩
  have := hv.2
  simp only [List.mem_cons, List.not_mem_nil, or_false] at this
  rcases this with rfl | rfl | rfl | rfl <;>
  · show longOut std false 'ー' _ = _
    rw [longOut_eq hstd (by decide) (by decide) (by decide)]
    decide

theorem k2hP_kata (std : Std) {c : Char} (h1 : 0x30A1 ≤ c.toNat) (h2 : c.toNat ≤ 0x30F4) (prev : Option Char) (s : Str) :
    k2hP std false prev (c :: s) = k2hChar c :: k2hP std false (some (k2hChar c)) s ∧
      k2hPrev prev (c :: s) = k2hPrev (some (k2hChar c)) s := by
  have hk : ¬ keeps c = true := by rw [keeps_iff]; omega
  have hd : ¬ isDash c = true := by rw [isDash_iff]; omega
  have ha : is_char_katakana c = true := by rw [is_char_katakana_iff]; omega
  rw [k2hP_cons, if_neg hk, if_neg hd, if_pos ha, k2hPrev, if_neg (by simp [hk, hd]), if_pos ha]
  exact ⟨rfl, rfl⟩

theorem k2hP_other (std : Std) {c : Char} (h : is_char_katakana c = false) (prev : Option Char) (s : Str) :
    k2hP std false prev (c :: s) = c :: k2hP std false none s ∧ k2hPrev prev (c :: s) = k2hPrev none s := by
  have ha : ¬ is_char_katakana c = true := by simp [h]
  have ha' := mt is_char_katakana_iff.2 ha
  have hk : ¬ keeps c = true := by rw [keeps_iff]; omega
  have hd : ¬ isDash c = true := by rw [isDash_iff]; omega
  rw [k2hP_cons, if_neg hk, if_neg hd, if_neg ha, k2hPrev, if_neg (by simp [hk, hd]), if_neg ha]
  exact ⟨rfl, rfl⟩

theorem k2hP_keep (std : Std) {c : Char} (h : keeps c = true) (prev : Option Char) (s : Str) :
    k2hP std false prev (c :: s) = c :: k2hP std false prev s ∧ k2hPrev prev (c :: s) = k2hPrev prev s := by
  rw [k2hP_cons, if_pos h, k2hPrev, if_pos (by simp [h])]
  exact ⟨rfl, rfl⟩

/-- going to katakana and back, it does not matter whether one goes to hiragana before -/
theorem k2hP_back {std : Std} (hstd : std.Lawful) (s : Str) : ∀ {q a b : Option Char}, PrevOk q → gap std a = gap std b →
    (q = none ∨ gap std q = gap std b) →
    k2hP std false a ((k2hP std false q s).map h2kP) = k2hP std false b (s.map h2kP) ∧
    gap std (k2hPrev a ((k2hP std false q s).map h2kP)) = gap std (k2hPrev b (s.map h2kP)) := by
  induction s with
  | nil =>
    intro q a b _ hab _
    rw [show k2hP std false q [] = [] by cases q <;> rfl]
    exact ⟨by cases a <;> cases b <;> rfl, hab⟩
  | cons c s ih =>
    intro q a b hq hab hqb
    by_cases hk : keeps c = true
    · have hc : h2kP c = c := by
        rw [keeps_iff] at hk
        rw [char_eq_iff, h2kP_toNat, if_neg (by omega)]
      rw [(k2hP_keep std hk q s).1, List.map_cons, List.map_cons, hc, (k2hP_keep std hk a _).1, (k2hP_keep std hk a _).2,
        (k2hP_keep std hk b _).1, (k2hP_keep std hk b _).2, (ih hq hab hqb).1]
      exact ⟨rfl, (ih hq hab hqb).2⟩
    · by_cases hd : isDash c = true
      · cases isDash_eq hd
        have dash : ∀ (x : Option Char) (t : Str), k2hPrev x ('ー' :: t) = k2hPrev x t := by
          intro x t; rw [k2hPrev, if_pos (by decide)]
        rw [k2hP_dash, List.map_append, List.map_cons, show h2kP 'ー' = 'ー' by decide, k2hP_dash, dash]
        cases q with
        | none =>
          have := ih hq hab hqb
          rw [show (gap std none).map h2kP = ['ー'] by rw [gap]; decide, List.singleton_append, k2hP_dash, dash, this.1, hab]
          exact ⟨rfl, this.2⟩
        | some p =>
          have hqb' : gap std (some p) = gap std b := by
            rcases hqb with h | h
            · cases h
            · exact h
          obtain ⟨p1, p2⟩ := hq p rfl
          cases hg : gap std (some p) with
          | nil =>
            have := ih hq hab (Or.inr hqb')
            rw [← hqb', hg, List.map_nil, List.nil_append, List.nil_append]
            exact this
          | cons v l =>
            obtain ⟨g1, g2, g3⟩ := gap_gap hstd p1 p2 (v := v) (by rw [hg]; simp)
            rw [hg] at g1
            rw [g1]
            have hv : 0x30A1 ≤ (h2kP v).toNat ∧ (h2kP v).toNat ≤ 0x30F4 ∧ k2hChar (h2kP v) = v := by
              simp only [List.mem_cons, List.not_mem_nil, or_false] at g3
              rcases g3 with rfl | rfl | rfl | rfl <;> decide
            have hvb : gap std (some v) = gap std b := by rw [g2, ← g1, ← hg, hqb']
            have := ih hq hvb (Or.inr hqb')
            rw [List.map_singleton, List.singleton_append, (k2hP_kata std hv.1 hv.2.1 a _).1,
              (k2hP_kata std hv.1 hv.2.1 a _).2, hv.2.2, this.1, ← hqb', hg, g1]
            exact ⟨rfl, this.2⟩
      · by_cases ha : is_char_katakana c = true
        · have ha' := is_char_katakana_iff.1 ha
          have hk' := mt keeps_iff.2 hk
          have hd' := mt isDash_iff.2 hd
          have hp := k2hChar_prevOk (by simpa using hk) (by simpa using hd) ha
          obtain ⟨p1, p2⟩ := hp _ rfl
          have hc : h2kP c = c := by rw [char_eq_iff, h2kP_toNat, if_neg (by omega)]
          have e : k2hP std false q (c :: s) = k2hChar c :: k2hP std false (some (k2hChar c)) s := by
            rw [k2hP_cons, if_neg hk, if_neg hd, if_pos ha]
          have e2 : k2hP std false b (c :: s.map h2kP) = k2hChar c :: k2hP std false (some (k2hChar c)) (s.map h2kP) := by
            rw [k2hP_cons, if_neg hk, if_neg hd, if_pos ha]
          have e3 : k2hPrev b (c :: s.map h2kP) = k2hPrev (some (k2hChar c)) (s.map h2kP) := by
            rw [k2hPrev, if_neg (by simp [hk, hd]), if_pos ha]
          have h3 : (h2kP (k2hChar c)).toNat = (k2hChar c).toNat + 0x60 := by rw [h2kP_toNat, if_pos (by omega)]
          have h4 : k2hChar (h2kP (k2hChar c)) = k2hChar c := by
            rw [char_eq_iff, k2hChar_toNat (by omega) (by omega), if_neg (by omega), if_neg (by omega), if_neg (by omega),
              if_neg (by omega)]
            omega
          have := ih hp (rfl : gap std (some (k2hChar c)) = _) (Or.inr rfl)
          rw [e, List.map_cons, List.map_cons, hc, e2, e3, (k2hP_kata std (by omega) (by omega) a _).1,
            (k2hP_kata std (by omega) (by omega) a _).2, h4, this.1]
          exact ⟨rfl, this.2⟩
        · have ha' : is_char_katakana c = false := by simpa using ha
          have ha2 := mt is_char_katakana_iff.2 ha
          rw [(k2hP_other std ha' q s).1, List.map_cons, List.map_cons]
          by_cases hh : 0x3041 ≤ c.toNat ∧ c.toNat ≤ 0x3096
          · have h3 : (h2kP c).toNat = c.toNat + 0x60 := by rw [h2kP_toNat, if_pos hh]
            by_cases hw : c.toNat ≤ 0x3094
            · have := ih prevOk_none (rfl : gap std (some (k2hChar (h2kP c))) = _) (Or.inl rfl)
              rw [(k2hP_kata std (by omega) (by omega) a _).1, (k2hP_kata std (by omega) (by omega) a _).2,
                (k2hP_kata std (by omega) (by omega) b _).1, (k2hP_kata std (by omega) (by omega) b _).2, this.1]
              exact ⟨rfl, this.2⟩
            · have hk2 : keeps (h2kP c) = true := by rw [keeps_iff]; omega
              have := ih prevOk_none hab (Or.inl rfl)
              rw [(k2hP_keep std hk2 a _).1, (k2hP_keep std hk2 a _).2, (k2hP_keep std hk2 b _).1, (k2hP_keep std hk2 b _).2,
                this.1]
              exact ⟨rfl, this.2⟩
          · have hc : h2kP c = c := by rw [char_eq_iff, h2kP_toNat, if_neg hh]
            have := ih prevOk_none (rfl : gap std none = _) (Or.inl rfl)
            rw [hc, (k2hP_other std ha' a _).1, (k2hP_other std ha' a _).2, (k2hP_other std ha' b _).1,
              (k2hP_other std ha' b _).2, this.1]
            exact ⟨rfl, this.2⟩

/-- the same where only some pieces of the text go to hiragana before -/
theorem k2hP_back_runs {std : Std} (hstd : std.Lawful) (f : Bool × Str → Str) (ts : List (Bool × Str)) :
    ∀ {a b : Option Char}, gap std a = gap std b →
    k2hP std false a ((ts.flatMap fun x => if x.1 then k2hP std false none x.2 else f x).map h2kP)
      = k2hP std false b ((ts.flatMap fun x => if x.1 then x.2 else f x).map h2kP) := by
  induction ts with
  | nil => intro a b _; cases a <;> cases b <;> rfl
  | cons x ts ih =>
    intro a b hab
    rw [List.flatMap_cons, List.flatMap_cons, List.map_append, List.map_append, k2hP_append, k2hP_append]
    cases x.1 with
    | true =>
      have := k2hP_back hstd x.2 (q := none) prevOk_none hab (Or.inl rfl)
      simp only [if_true]
      rw [this.1, ih this.2]
    | false =>
      have := k2hP_congr std ((f x).map h2kP) hab
      simp only [Bool.false_eq_true, if_false]
      rw [this.1, ih this.2]

/-! ## when nothing is lost -/

theorem pieces_map_iff {f : Str → Char → Str} (g : Char → Char) (hf : ∀ b c, (f b c).length ≤ 1) :
    ∀ (s before : Str), pieces f before s = s.map g ↔ ∀ a c b, s = a ++ c :: b → f (before ++ a) c = [g c] := by
  intro s
  induction s with
  | nil => intro before; simp [pieces]
  | cons d s ih =>
    intro before
    rw [pieces, List.map_cons]
    constructor
    · intro h
      have hl := pieces_length hf s (before ++ [d])
      have hd : f before d = [g d] ∧ pieces f (before ++ [d]) s = s.map g := by
        have h1 := hf before d
        cases hp : f before d with
        | nil =>
          rw [hp] at h
          have := congrArg List.length h
          simp only [List.nil_append, List.length_cons, List.length_map] at this
          omega
        | cons e es =>
          rw [hp] at h1 h
          cases es with
          | nil =>
            simp only [List.cons_append, List.nil_append, List.cons.injEq] at h
            exact ⟨by rw [h.1], h.2⟩
          | cons _ _ => simp at h1
      intro a c b e
      cases a with
      | nil =>
        simp only [List.nil_append, List.cons.injEq] at e
        rw [List.append_nil, ← e.1]; exact hd.1
      | cons x a =>
        simp only [List.cons_append, List.cons.injEq] at e
        have := (ih (before ++ [d])).1 hd.2 a c b e.2
        rw [← e.1]
        simpa using this
    · intro h
      have h1 := h [] d s rfl
      rw [List.append_nil] at h1
      have h2 : pieces f (before ++ [d]) s = s.map g := (ih _).2 fun a c b e => by
        have := h (d :: a) c b (by rw [e]; rfl)
        simpa using this
      rw [h1, h2]; rfl

/-- nothing in the text is lost on the way from katakana to hiragana -/
def NoLoss (s : Str) : Prop :=
  (∀ c ∈ s, c ∉ ['ヷ', 'ヸ', 'ヹ', 'ヺ']) ∧
    ∀ a b g, s = a ++ 'ー' :: b → Spec.governing a = some g → ¬ Spec.KatakanaLetter g

theorem shift_noLoss {std : Std} (hstd : std.Lawful) (s : Str) :
    (k2hP std false none s).map h2kP = s.map h2kP ↔ NoLoss s := by
  have e := k2hP_hiraFromV hstd false s []
  rw [show k2hPrev none [] = none from rfl] at e
  rw [e, show (h2kP : Char → Char) = Spec.toKata from funext h2kP_eq_toKata, hiraFromV_pieces_kata, pieces_map_iff]
  case hf =>
    intro b c
    rw [List.length_map]
    split
    · exact markAfterV_length _ _ _
    · simp
  have hne : ∀ c : Char, c ≠ 'ー' → (Spec.toKata (Spec.toHira c) = Spec.toKata c ↔ c ∉ ['ヷ', 'ヸ', 'ヹ', 'ヺ']) := by
    intro c h
    simp only [char_eq_iff, Char.reduceToNat, ne_eq, toHira_toNat, toKata_toNat,
      List.mem_cons, List.not_mem_nil, or_false] at *
    repeat' split
    all_goals omega
  constructor
  · intro h
    refine ⟨fun c hc => ?_, fun a b g e hg => ?_⟩
    · obtain ⟨a, b, e⟩ := List.append_of_mem hc
      have := h a c b e
      by_cases hd : c = 'ー'
      · subst hd; decide
      · rw [if_neg hd, List.map_singleton, List.cons.injEq] at this
        exact (hne c hd).1 this.1
    · have := h a 'ー' b e
      rw [if_pos rfl, show Spec.toKata 'ー' = 'ー' by decide, markAfterV_stays_kata] at this
      exact this g hg
  · rintro ⟨h1, h2⟩ a c b e
    by_cases hd : c = 'ー'
    · subst hd
      rw [if_pos rfl, show Spec.toKata 'ー' = 'ー' by decide, markAfterV_stays_kata]
      exact fun g hg => h2 a b g e hg
    · rw [if_neg hd, List.map_singleton, (hne c hd).2 (h1 c (by rw [e]; simp))]

theorem flatMap_aligned {α β : Type} {f g : α → List β} (ts : List α) (hl : ∀ x ∈ ts, (f x).length ≤ (g x).length)
    (h : ts.flatMap f = ts.flatMap g) : ∀ x ∈ ts, f x = g x := by
  have hlen : ∀ ts : List α, (∀ x ∈ ts, (f x).length ≤ (g x).length) → (ts.flatMap f).length ≤ (ts.flatMap g).length := by
    intro ts
    induction ts with
    | nil => simp
    | cons x ts ih =>
      intro hl
      rw [List.flatMap_cons, List.flatMap_cons, List.length_append, List.length_append]
      have := ih fun y hy => hl y (by simp [hy])
      have := hl x (by simp)
      omega
  induction ts with
  | nil => simp
  | cons x ts ih =>
    rw [List.flatMap_cons, List.flatMap_cons] at h
    have l1 := hl x (by simp)
    have l2 := hlen ts fun y hy => hl y (by simp [hy])
    have l3 := congrArg List.length h
    rw [List.length_append, List.length_append] at l3
    obtain ⟨h1, h2⟩ := List.append_inj h (by omega)
    intro y hy
    rcases List.mem_cons.1 hy with rfl | hy
    · exact h1
    · exact ih (fun y hy => hl y (by simp [hy])) h2 y hy

/-- the characters that are not kana -/
def rest (s : Str) : Str := s.filter fun c => ¬ Spec.Kana c

theorem rest_h2k (s : Str) : rest (s.map h2kP) = rest s := by
  unfold rest
  induction s with
  | nil => rfl
  | cons c s ih =>
    rw [List.map_cons, List.filter_cons, List.filter_cons, ih]
    have h : Spec.Kana (h2kP c) ↔ Spec.Kana c := by
      rw [specKana_iff, specKana_iff, h2kP_toNat]
      split <;> omega
    simp only [h]
    by_cases hk : Spec.Kana c
    · simp [hk]
    · have : h2kP c = c := by
        rw [specKana_iff] at hk
        rw [char_eq_iff, h2kP_toNat, if_neg (by omega)]
      simp [hk, this]

theorem settleN_rest (t : Str) : (rest (Spec.settleN t)).length ≤ (rest t).length ∧
    ((rest (Spec.settleN t)).length = (rest t).length → Spec.settleN t = t) := by
  induction t with
  | nil => exact ⟨Nat.le_refl _, fun _ => rfl⟩
  | cons c t ih =>
    cases t with
    | nil => exact ⟨Nat.le_refl _, fun _ => rfl⟩
    | cons d t =>
      have hn : (rest [Spec.nKana c]).length ≤ (rest [c]).length ∧
          ((rest [Spec.nKana c]).length = (rest [c]).length → Spec.nKana c = c) := by
        unfold Spec.nKana
        by_cases h1 : c = 'n'
        · subst h1; decide
        · by_cases h2 : c = 'N'
          · subst h2; decide
          · rw [if_neg h1, if_neg h2]; exact ⟨Nat.le_refl _, fun _ => rfl⟩
      have hr : ∀ (x : Char) (l : Str), (rest (x :: l)).length = (rest [x]).length + (rest l).length := by
        intro x l
        unfold rest
        rw [← List.length_append, ← List.filter_append]; rfl
      show (rest ((if d = 'っ' ∨ d = 'ッ' then Spec.nKana c else c) :: Spec.settleN (d :: t))).length ≤ _ ∧
        ((rest ((if d = 'っ' ∨ d = 'ッ' then Spec.nKana c else c) :: Spec.settleN (d :: t))).length = _ →
          (if d = 'っ' ∨ d = 'ッ' then Spec.nKana c else c) :: Spec.settleN (d :: t) = _)
      rw [hr _ (Spec.settleN (d :: t)), hr c (d :: t)]
      split
      · refine ⟨by omega, fun h => ?_⟩
        rw [hn.2 (by omega), ih.2 (by omega)]
      · refine ⟨by omega, fun h => ?_⟩
        rw [ih.2 (by omega)]

theorem settleBy_rest {b : Bool} {t : Str} (h : rest (settleBy b t) = rest t) : settleBy b t = t := by
  cases b
  · exact (settleN_rest t).2 (congrArg List.length h)
  · rfl

theorem rest_flatMap {α : Type} {f g : α → Str} (ts : List α) (h : ∀ x ∈ ts, rest (f x) = rest (g x)) :
    rest (ts.flatMap f) = rest (ts.flatMap g) := by
  induction ts with
  | nil => rfl
  | cons x ts ih =>
    have ih := ih fun y hy => h y (by simp [hy])
    have hx := h x (by simp)
    unfold rest at *
    rw [List.flatMap_cons, List.flatMap_cons, List.filter_append, List.filter_append, ih, hx]

theorem map_flatMap_h2k {α : Type} (f : α → Str) (ts : List α) :
    (ts.flatMap f).map h2kP = ts.flatMap fun x => (f x).map h2kP := by
  rw [List.map_flatMap]

/-- the text is not one of those on which only the first character is looked at -/
def Plain (s : Str) : Prop :=
  ∀ c, s.head? = some c → Spec.EnglishPunct c → is_mixed s = true ∨ is_romaji s = true

/-- both conversions side by side: the katakana come from a text `x` that differs from the hiragana only in its kana -/
theorem side_by_side {std : Std} (hstd : std.Lawful) (s : Str) (o : Options)
    (hq : o.pass_romaji = true ∨ ((is_mixed s = true → 'Σ' ∉ s) ∧ Plain s)) :
    ∃ x, kataP std s o = x.map h2kP ∧
      k2hP std false none ((hiraP std s o).map h2kP) = k2hP std false none (x.map h2kP) ∧
      rest (hiraP std s o) = rest x ∧ ((hiraP std s o).map h2kP = x.map h2kP ↔ NoLoss s) := by
  have shifted : kataP std s o = s.map h2kP → hiraP std s o = k2hP std false none s → ∃ x, kataP std s o = x.map h2kP ∧
      k2hP std false none ((hiraP std s o).map h2kP) = k2hP std false none (x.map h2kP) ∧
      rest (hiraP std s o) = rest x ∧ ((hiraP std s o).map h2kP = x.map h2kP ↔ NoLoss s) := by
    intro h1 h2
    refine ⟨s, h1, ?_, ?_, ?_⟩
    · rw [h2]; exact (k2hP_back hstd s prevOk_none rfl (Or.inl rfl)).1
    · rw [h2]; exact filter_nonkana hstd false s prevOk_none
    · rw [h2]; exact shift_noLoss hstd s
  by_cases hp : o.pass_romaji = true
  · exact shifted (by unfold kataP; rw [if_pos hp]) (by unfold hiraP; rw [if_pos hp])
  · obtain ⟨hs, hpl⟩ : (is_mixed s = true → 'Σ' ∉ s) ∧ Plain s := by
      rcases hq with h | h
      · exact absurd h hp
      · exact h
    by_cases hm : is_mixed s = true
    · obtain ⟨ts, hr⟩ := C60_runs_exist s
      have e := k2hP_runs std false ts hr.runs hr.alternating
      rw [hr.text] at e
      have e1 : hiraP std s o = ts.flatMap fun x => if x.1 then k2hP std false none x.2 else
          kana (modeOf o) (std.toLowercase x.2) := by
        unfold hiraP
        rw [if_neg hp, if_pos hm, e]
        apply kana_lower_runs hstd _ _ ts s hr (hs hm)
        intro t h0 hk
        refine ⟨?_, k2hP_allKana hstd false t hk⟩
        cases t with
        | nil => exact absurd rfl h0
        | cons c t =>
          obtain ⟨d, l, e, _⟩ := k2hP_head std false c t
          rw [e]; simp
      have e2 : kana (modeOf o) (std.toLowercase s) = ts.flatMap fun x => if x.1 then x.2 else
          kana (modeOf o) (std.toLowercase x.2) := by
        have := kana_lower_runs hstd (modeOf o) id ts s hr (hs hm) (fun t h0 hk => ⟨h0, hk⟩)
        have e0 : (ts.flatMap fun x => if x.1 then id x.2 else x.2) = s := by
          rw [← hr.text]
          apply flatMap_congr_left
          intro x _; simp
        rw [e0] at this
        exact this
      refine ⟨kana (modeOf o) (std.toLowercase s), ?_, ?_, ?_, ?_⟩
      · unfold kataP; rw [if_neg hp, if_pos (by simp [hm])]
      · rw [e1, e2]
        exact k2hP_back_runs hstd (fun x => kana (modeOf o) (std.toLowercase x.2)) ts rfl
      · rw [e1, e2]
        apply rest_flatMap
        intro x _
        split
        · exact filter_nonkana hstd false x.2 prevOk_none
        · rfl
      · rw [e1, e2, ← shift_noLoss hstd s, e]
        conv => rhs; rhs; rw [← hr.text]
        simp only [map_flatMap_h2k]
        have key : (∀ x ∈ ts, x.1 = true → (k2hP std false none x.2).map h2kP = x.2.map h2kP) ↔
            (∀ x ∈ ts, x.1 = true → (k2hP std false none x.2).map h2kP = x.2.map h2kP) := Iff.rfl
        have gen : ∀ f : Bool × Str → Str,
            (ts.flatMap fun x => (if x.1 then k2hP std false none x.2 else f x).map h2kP) =
              (ts.flatMap fun x => (if x.1 then x.2 else f x).map h2kP) ↔
            (∀ x ∈ ts, x.1 = true → (k2hP std false none x.2).map h2kP = x.2.map h2kP) := by
          intro f
          constructor
          · intro h x hx hb
            have := flatMap_aligned ts ?_ h x hx
            · simpa [hb] using this
            · intro y _
              rw [List.length_map, List.length_map]
              split
              · exact k2hP_length_le hstd false y.2 prevOk_none
              · exact Nat.le_refl _
          · intro h
            apply flatMap_congr_left
            intro x hx
            cases hb : x.1 with
            | true => simpa using h x hx hb
            | false => rfl
        rw [gen, ← gen fun x => x.2]
        apply Eq.to_iff
        congr 1
        apply flatMap_congr_left
        intro x _
        split <;> rfl
    · by_cases hr : is_romaji s = true
      · have e1 : hiraP std s o = kana (modeOf o) (std.toLowercase s) := by
          unfold hiraP; rw [if_neg hp, if_neg hm, if_pos (by simp [hr])]
        refine ⟨hiraP std s o, ?_, rfl, rfl, ?_⟩
        · unfold kataP; rw [if_neg hp, if_pos (by simp [hr]), e1]
        · refine ⟨fun _ => ?_, fun _ => rfl⟩
          rw [← shift_noLoss hstd s, k2hP_no_kana hstd]
          intro c hc hk
          have := (C01_is_romaji s).1 hr |>.2 c hc
          rw [specRomaji_iff] at this
          rw [specKana_iff] at hk
          simp only [List.mem_cons, List.not_mem_nil, or_false] at this
          omega
      · apply shifted
        · unfold kataP; rw [if_neg hp, if_neg (by simp [hr, hm])]
        · unfold hiraP
          rw [if_neg hp, if_neg hm, if_neg]
          rw [Bool.or_eq_true]
          rintro (h | h)
          · exact hr h
          · rw [head_punct_iff'] at h
            obtain ⟨c, hc, hcp⟩ := h
            rcases hpl c hc hcp with h | h
            · exact hm h
            · exact hr h

/-- neither `pass_romaji` nor IME mode: `n` before っ is settled -/
def keepsN (o : Options) : Bool := o.pass_romaji || decide (modeOf o = .ime)

theorem keepsN_of {o : Options} (hp : ¬ o.pass_romaji = true) : keepsN o = decide (modeOf o = .ime) := by
  simp [keepsN, hp]

theorem plain_not_punct {s : Str} (hpl : Plain s) (hm : ¬ is_mixed s = true) (hr : ¬ is_romaji s = true) :
    ¬ (is_romaji s || ((s.head?).map is_char_english_punctuation).getD false) = true := by
  rw [Bool.or_eq_true]
  rintro (h | h)
  · exact hr h
  · rw [head_punct_iff'] at h
    obtain ⟨c, hc, hcp⟩ := h
    rcases hpl c hc hcp with h | h
    · exact hm h
    · exact hr h

theorem k2hP_k2hP {std : Std} (hstd : std.Lawful) {r : Str} (h : FewKatakana r) : k2hP std false none r = r := by
  have := C23_unchanged hstd r false h
  rw [k2h_eq hstd] at this
  exact Except.ok.inj this

/-- the result of `to_hiragana`, converted again -/
theorem hira_again {std : Std} (hstd : std.Lawful) (s : Str) (o : Options) (hf : FewKatakana (hiraP std s o)) :
    hiraP std (hiraP std s o) o = settleBy (keepsN o) (hiraP std s o) ∧
    kataP std (hiraP std s o) o = (settleBy (keepsN o) (hiraP std s o)).map h2kP := by
  by_cases hp : o.pass_romaji = true
  · rw [show keepsN o = true by simp [keepsN, hp]]
    refine ⟨?_, ?_⟩
    · conv => lhs; unfold hiraP
      rw [if_pos hp]; exact k2hP_k2hP hstd hf
    · unfold kataP; rw [if_pos hp]; rfl
  · have conv : ∀ t, hiraP std s o = kana (modeOf o) (std.toLowercase t) →
        hiraP std (hiraP std s o) o = settleBy (keepsN o) (hiraP std s o) ∧
        kataP std (hiraP std s o) o = (settleBy (keepsN o) (hiraP std s o)).map h2kP := by
      intro t e
      have hset : ∀ c ∈ hiraP std s o, Settled std c := by
        rw [e]; exact kana_settled hstd _ _ (fun c hc => lower_settled hstd hc)
      have hfix : kana (modeOf o) (hiraP std s o) = settleBy (keepsN o) (hiraP std s o) := by
        rw [e, kana_settle, keepsN_of hp]
      refine ⟨?_, kataP_settle hp hset hfix⟩
      rw [hiraP_settle hstd hp hset hfix, k2hP_k2hP hstd hf]
    by_cases hm : is_mixed s = true
    · exact conv _ (by unfold hiraP; rw [if_neg hp, if_pos hm])
    · by_cases hr : (is_romaji s || ((s.head?).map is_char_english_punctuation).getD false) = true
      · exact conv _ (by unfold hiraP; rw [if_neg hp, if_neg hm, if_pos hr])
      · have e : hiraP std s o = k2hP std false none s := by
          unfold hiraP; rw [if_neg hp, if_neg hm, if_neg hr]
        obtain ⟨h1, h2⟩ := hiraP_shifted hstd hp hm hr (k2hP_k2hP hstd hf)
        rw [settleBy_not_mixed _ h1]
        refine ⟨h2, ?_⟩
        have m2 : is_romaji (hiraP std s o) = false := by
          cases hx : is_romaji (hiraP std s o) with
          | false => rfl
          | true =>
            have : s = hiraP std s o := by
              rw [e]
              exact (k2hP_result_no_kana std false s (by rw [← e]; exact romaji_not_kana hx)).symm
            rw [← this] at hx
            exact absurd (by simp [hx]) hr
        unfold kataP
        rw [if_neg hp, m2, h1]; rfl

/-- the result of `to_katakana`, converted to hiragana -/
theorem hira_after_kata {std : Std} (hstd : std.Lawful) (s : Str) (o : Options) (hq : o.pass_romaji = true ∨ Plain s) :
    hiraP std (kataP std s o) o = settleBy (keepsN o) (k2hP std false none (kataP std s o)) := by
  by_cases hp : o.pass_romaji = true
  · rw [show keepsN o = true by simp [keepsN, hp]]
    unfold hiraP; rw [if_pos hp]; rfl
  · have hpl : Plain s := hq.resolve_left hp
    by_cases hr : (is_romaji s || is_mixed s) = true
    · have e : kataP std s o = (kana (modeOf o) (std.toLowercase s)).map h2kP := by
        unfold kataP; rw [if_neg hp, if_pos hr]
      have hset : ∀ c ∈ kataP std s o, Settled std c := by
        rw [e]
        intro c hc
        obtain ⟨d, hd, rfl⟩ := List.mem_map.1 hc
        exact h2kP_settled hstd (kana_settled hstd _ _ (fun c hc => lower_settled hstd hc) d hd)
      apply hiraP_settle hstd hp hset
      rw [e, keepsN_of hp]
      exact kana_through_h2k (kana_settle _ _)
    · have e : kataP std s o = s.map h2kP := by unfold kataP; rw [if_neg hp, if_neg hr]
      rw [Bool.or_eq_true, not_or] at hr
      rw [e]
      have hm' : ¬ is_mixed (s.map h2kP) = true := by rw [(katakana_shift_class s).2]; exact hr.2
      have hr' : ¬ is_romaji (s.map h2kP) = true := by rw [(katakana_shift_class s).1]; exact hr.1
      have hpl' : Plain (s.map h2kP) := by
        intro c hc hcp
        exfalso
        cases s with
        | nil => cases hc
        | cons d s =>
          simp only [List.map_cons, List.head?_cons, Option.some.injEq] at hc
          have hd : h2kP d = d := by
            have := punct_not_kana hcp
            rw [← hc, specKana_iff, h2kP_toNat] at this
            rw [char_eq_iff, h2kP_toNat]
            split at this
            · omega
            · next h => rw [if_neg h]
          rw [hd] at hc
          rcases hpl c (by rw [hc]; rfl) hcp with h | h
          · exact hr.2 h
          · exact hr.1 h
      have hh := plain_not_punct hpl' hm' hr'
      have e2 : hiraP std (s.map h2kP) o = k2hP std false none (s.map h2kP) := by
        unfold hiraP; rw [if_neg hp, if_neg hm', if_neg hh]
      have hf : FewKatakana (hiraP std (s.map h2kP) o) := by rw [e2]; exact few_k2h hstd _
      have := (hiraP_shifted hstd hp hm' hh (k2hP_k2hP hstd hf)).1
      rw [e2] at this
      rw [e2, settleBy_not_mixed _ this]

theorem plain_few {std : Std} (hstd : std.Lawful) {s : Str} {o : Options}
    (hq : o.pass_romaji = true ∨ ((is_mixed s = true → 'Σ' ∉ s) ∧ Plain s)) : FewKatakana (hiraP std s o) := by
  refine hiraP_few hstd s o (hq.imp_right fun g => ?_)
  by_cases hx : ∃ c, s.head? = some c ∧ Spec.EnglishPunct c
  · obtain ⟨c, hc, hcp⟩ := hx
    rcases g.2 c hc hcp with h | h
    · rw [C04_is_mixed] at h; exact Or.inl h.2
    · rw [C01_is_romaji] at h
      obtain ⟨d, hd⟩ := List.exists_mem_of_ne_nil _ h.1
      exact Or.inl ⟨d, hd, h.2 d hd⟩
  · exact Or.inr (Or.inl fun c hc hcp => hx ⟨c, hc, hcp⟩)

/-- **C94** converting to katakana by way of hiragana gives the katakana of the text exactly if no long vowel mark in it
is governed by a katakana letter, none of ヷ ヸ ヹ ヺ occurs, and no `n` is left before っ. -/
theorem C94_katakana {std : Std} (hstd : std.Lawful) (s h k : Str) (o : Options)
    (hq : o.pass_romaji = true ∨ ((is_mixed s = true → 'Σ' ∉ s) ∧
      ∀ c, s.head? = some c → Spec.EnglishPunct c → is_mixed s = true ∨ is_romaji s = true))
    (hh : to_hiragana_with_opt std s o = .ok h) (hk : to_katakana_with_opt std s o = .ok k) :
    to_katakana_with_opt std h o = .ok k ↔
      (∀ c ∈ s, c ∉ ['ヷ', 'ヸ', 'ヹ', 'ヺ']) ∧
      (∀ a b g, s = a ++ 'ー' :: b → Spec.governing a = some g → ¬ Spec.KatakanaLetter g) ∧
      (o.pass_romaji = true ∨ (o.imemode = true ∧ o.use_obsolete_kana = false) ∨ ¬ ['n', 'っ'] <:+: h) := by
  have hst := C67_hiragana_stable hstd hh
  rw [to_hiragana_eq hstd] at hh
  rw [to_katakana_eq hstd] at hk
  cases hh; cases hk
  have hf := plain_few hstd hq
  obtain ⟨h1, h2⟩ := hira_again hstd s o hf
  obtain ⟨x, x1, x2, x3, x4⟩ := side_by_side hstd s o hq
  rw [to_hiragana_eq hstd, h1, Except.ok.injEq] at hst
  rw [to_katakana_eq hstd, h2, x1, Except.ok.injEq]
  constructor
  · intro e
    have e1 := congrArg rest e
    rw [rest_h2k, rest_h2k, ← x3] at e1
    have e2 := settleBy_rest e1
    rw [e2] at e
    exact ⟨(x4.1 e).1, (x4.1 e).2, (hst.1 e2).2⟩
  · rintro ⟨g1, g2, g3⟩
    rw [hst.2 ⟨hf, g3⟩]
    exact x4.2 ⟨g1, g2⟩

/-- **C94** converting to hiragana by way of katakana gives the hiragana of the text exactly if these have no ゕ ゖ, no
long vowel mark governed by a hiragana letter, and no `n` left before っ. -/
theorem C94_hiragana {std : Std} (hstd : std.Lawful) (s h k : Str) (o : Options)
    (hq : o.pass_romaji = true ∨ ((is_mixed s = true → 'Σ' ∉ s) ∧
      ∀ c, s.head? = some c → Spec.EnglishPunct c → is_mixed s = true ∨ is_romaji s = true))
    (hh : to_hiragana_with_opt std s o = .ok h) (hk : to_katakana_with_opt std s o = .ok k) :
    to_hiragana_with_opt std k o = .ok h ↔
      'ゕ' ∉ h ∧ 'ゖ' ∉ h ∧
      (∀ a b g, h = a ++ 'ー' :: b → Spec.governing a = some g → ¬ Spec.HiraganaLetter g) ∧
      (o.pass_romaji = true ∨ (o.imemode = true ∧ o.use_obsolete_kana = false) ∨ ¬ ['n', 'っ'] <:+: h) := by
  have hst := C67_hiragana_stable hstd hh
  rw [to_hiragana_eq hstd] at hh
  rw [to_katakana_eq hstd] at hk
  cases hh; cases hk
  have hf := plain_few hstd hq
  obtain ⟨h1, h2⟩ := hira_again hstd s o hf
  obtain ⟨x, x1, x2, x3, x4⟩ := side_by_side hstd s o hq
  have h65 := C65_hiragana hstd (hiraP std s o) false
  rw [hiragana_to_katakana_eq, ok_bind, k2h_eq hstd, Except.ok.injEq] at h65
  rw [to_hiragana_eq hstd, h1, Except.ok.injEq] at hst
  rw [to_hiragana_eq hstd, hira_after_kata hstd s o (hq.imp_right And.right), x1, ← x2, Except.ok.injEq]
  constructor
  · intro e
    have e1 := congrArg rest e
    have e2 : rest (k2hP std false none ((hiraP std s o).map h2kP)) = rest (hiraP std s o) :=
      (filter_nonkana hstd false _ prevOk_none).trans (rest_h2k _)
    have e3 := settleBy_rest (e1.trans e2.symm)
    rw [e3] at e
    rw [e] at e3
    obtain ⟨g1, g2⟩ := h65.1 e
    exact ⟨fun hc => (g1 _ hc).2.1 rfl, fun hc => (g1 _ hc).2.2 rfl, g2, (hst.1 e3).2⟩
  · rintro ⟨g1, g2, g3, g4⟩
    have e := h65.2 ⟨fun c hc => ⟨fun hl => ?_, fun e => g1 (e ▸ hc), fun e => g2 (e ▸ hc)⟩, g3⟩
    · rw [e]; exact hst.2 ⟨hf, g4⟩
    · have hkc : Spec.Katakana c := by
        simp only [Spec.KatakanaLetter, Spec.Katakana, Spec.In] at *
        omega
      have := hf c hc hkc
      simp only [List.mem_cons, List.not_mem_nil, or_false] at this
      rcases this with rfl | rfl | h | h
      · exact absurd hl (by decide)
      · exact absurd hl (by decide)
      · exact Or.inl h
      · exact Or.inr h

example : to_hiragana_with_opt modernStd "toukyouの東京タワ".toList {} = .ok "とうきょうの東京たわ".toList ∧
    to_katakana_with_opt modernStd "toukyouの東京タワ".toList {} = .ok "トウキョウノ東京タワ".toList ∧
    to_katakana_with_opt modernStd "とうきょうの東京たわ".toList {} = .ok "トウキョウノ東京タワ".toList ∧
    to_hiragana_with_opt modernStd "トウキョウノ東京タワ".toList {} = .ok "とうきょうの東京たわ".toList := by decide +kernel

/-- long vowel marks are lost in one direction and found in the other -/
example : to_katakana_with_opt modernStd "ラーメン".toList {} = .ok "ラーメン".toList ∧
    to_hiragana_with_opt modernStd "ラーメン".toList {} = .ok "らあめん".toList ∧
    to_katakana_with_opt modernStd "らあめん".toList {} = .ok "ラアメン".toList ∧
    to_hiragana_with_opt modernStd "ra-men".toList {} = .ok "らーめん".toList ∧
    to_katakana_with_opt modernStd "ra-men".toList {} = .ok "ラーメン".toList := by decide +kernel

end WanaKana
