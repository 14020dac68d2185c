import Verif.Props.Convert2
import Verif.Spec.Sigma
import Verif.Proofs.StdUnicode
/-! # C137: texts with kana and romaji are converted run by run, also if they have a capital sigma -/

namespace WanaKana
open Spec (SigmaLowered RunsLowered)

/-- lower-casing only the capital sigmas -/
theorem lowerFrom_sigma {std : Std} (hstd : std.Lawful) (s : Str) : ∀ pre, ∃ t, SigmaLowered s t ∧
    std.lowerFrom pre s = t.flatMap std.lowerChar := by
  induction s with
  | nil => intro _; exact ⟨[], .nil, rfl⟩
  | cons c s ih =>
    intro pre
    obtain ⟨t, h1, h2⟩ := ih (pre ++ [c])
    by_cases hc : c = 'Σ'
    · subst hc
      cases hf : std.finalSigma pre s with
      | true =>
        refine ⟨'ς' :: t, .sigma (by simp) h1, ?_⟩
        rw [Std.lowerFrom, if_pos rfl, hf, if_pos rfl, h2, List.flatMap_cons, hstd.lowerChar_sigma.2]
      | false =>
        refine ⟨'σ' :: t, .sigma (by simp) h1, ?_⟩
        rw [Std.lowerFrom, if_pos rfl, hf, if_neg (by simp), h2, List.flatMap_cons, hstd.lowerChar_sigma.1]
    · refine ⟨c :: t, .keep hc h1, ?_⟩
      rw [Std.lowerFrom, if_neg hc, h2, List.flatMap_cons]

theorem sigmaLowered_noSigma {s t : Str} (h : SigmaLowered s t) : 'Σ' ∉ t := by
  induction h with
  | nil => simp
  | keep hc _ ih =>
    intro hm
    rcases List.mem_cons.1 hm with e | hm
    · exact hc e.symm
    · exact ih hm
  | sigma hd _ ih =>
    intro hm
    rcases List.mem_cons.1 hm with e | hm
    · rw [← e] at hd; revert hd; decide
    · exact ih hm

theorem sigmaLowered_eq {s t : Str} (h : SigmaLowered s t) : 'Σ' ∉ s → t = s := by
  induction h with
  | nil => intro _; rfl
  | keep _ _ ih => intro hs; rw [ih (fun hm => hs (List.mem_cons_of_mem _ hm))]
  | sigma _ _ _ => intro hs; exact absurd List.mem_cons_self hs

theorem sigmaLowered_refl {s : Str} (h : 'Σ' ∉ s) : SigmaLowered s s := by
  induction s with
  | nil => exact .nil
  | cons c s ih => exact .keep (fun e => h (by rw [e]; exact List.mem_cons_self)) (ih fun hm => h (List.mem_cons_of_mem _ hm))

theorem sigmaLowered_append (a b : Str) : ∀ t, SigmaLowered (a ++ b) t → ∃ a' b', t = a' ++ b' ∧ SigmaLowered a a' ∧
    SigmaLowered b b' := by
  induction a with
  | nil => intro t h; exact ⟨[], t, rfl, .nil, h⟩
  | cons c a ih =>
    intro t h
    cases h with
    | keep hc h =>
      obtain ⟨a', b', rfl, h1, h2⟩ := ih _ h
      exact ⟨c :: a', b', rfl, .keep hc h1, h2⟩
    | sigma hd h =>
      obtain ⟨a', b', rfl, h1, h2⟩ := ih _ h
      exact ⟨_ :: a', b', rfl, .sigma hd h1, h2⟩

/-- a lowered run has the same script -/
theorem sigmaLowered_run {b : Bool} {s t : Str} (h : SigmaLowered s t)
    (hs : s ≠ [] ∧ ∀ c ∈ s, (Spec.Kana c ↔ b = true)) : t ≠ [] ∧ ∀ c ∈ t, (Spec.Kana c ↔ b = true) := by
  constructor
  · intro e
    subst e
    cases h
    exact hs.1 rfl
  · replace hs := hs.2
    induction h with
    | nil => intro c hc; cases hc
    | @keep c s t hc _ ih =>
      intro d hd
      rcases List.mem_cons.1 hd with rfl | hd
      · exact hs _ List.mem_cons_self
      · exact ih (fun c hc => hs c (List.mem_cons_of_mem _ hc)) d hd
    | @sigma d s t hd _ ih =>
      intro e he
      rcases List.mem_cons.1 he with rfl | he
      · have h1 := hs 'Σ' List.mem_cons_self
        have h2 : ¬ Spec.Kana 'Σ' := by decide
        have h3 : ¬ Spec.Kana e := by
          simp only [List.mem_cons, List.not_mem_nil, or_false] at hd
          rcases hd with rfl | rfl <;> decide
        exact ⟨fun h => absurd h h3, fun h => absurd (h1.2 h) h2⟩
      · exact ih (fun c hc => hs c (List.mem_cons_of_mem _ hc)) e he

theorem runsLowered_runs {ts us : List (Bool × Str)} (h : RunsLowered ts us)
    (hr : ∀ x ∈ ts, x.2 ≠ [] ∧ ∀ c ∈ x.2, (Spec.Kana c ↔ x.1 = true)) :
    ∀ x ∈ us, x.2 ≠ [] ∧ ∀ c ∈ x.2, (Spec.Kana c ↔ x.1 = true) := by
  induction h with
  | nil => intro x hx; cases hx
  | cons hs _ ih =>
    intro x hx
    rcases List.mem_cons.1 hx with rfl | hx
    · exact sigmaLowered_run hs (hr _ List.mem_cons_self)
    · exact ih (fun x hx => hr x (List.mem_cons_of_mem _ hx)) x hx

theorem runsLowered_alternating {ts us : List (Bool × Str)} (h : RunsLowered ts us) (ha : Spec.Alternating ts) :
    Spec.Alternating us := by
  induction h with
  | nil => trivial
  | @cons b s t ts us hs h ih =>
    cases h with
    | nil => trivial
    | cons hs' h' => exact ⟨ha.1, ih ha.2⟩

theorem runsLowered_noSigma {ts us : List (Bool × Str)} (h : RunsLowered ts us) : 'Σ' ∉ us.flatMap (·.2) := by
  induction h with
  | nil => simp
  | cons hs _ ih =>
    rw [List.flatMap_cons, List.mem_append, not_or]
    exact ⟨sigmaLowered_noSigma hs, ih⟩

/-- a lowered text whose kana runs have been converted comes from lowered runs -/
theorem runs_of_lowered (g : Str → Str) (ts : List (Bool × Str))
    (hr : ∀ x ∈ ts, x.2 ≠ [] ∧ ∀ c ∈ x.2, (Spec.Kana c ↔ x.1 = true))
    (hg : ∀ t : Str, t ≠ [] → (∀ c ∈ t, Spec.Kana c) → ∀ c ∈ g t, Spec.Kana c) : ∀ t,
    SigmaLowered (ts.flatMap fun x => if x.1 then g x.2 else x.2) t →
    ∃ us, RunsLowered ts us ∧ t = us.flatMap fun x => if x.1 then g x.2 else x.2 := by
  have hnk : ¬ Spec.Kana 'Σ' := by decide
  induction ts with
  | nil =>
    intro t h
    cases h
    exact ⟨[], .nil, rfl⟩
  | cons x ts ih =>
    intro t h
    rw [List.flatMap_cons] at h
    obtain ⟨a, b, rfl, h1, h2⟩ := sigmaLowered_append _ _ _ h
    obtain ⟨us, h3, rfl⟩ := ih (fun x hx => hr x (List.mem_cons_of_mem _ hx)) _ h2
    obtain ⟨r1, r2⟩ := hr x List.mem_cons_self
    obtain ⟨f, s⟩ := x
    cases f with
    | true =>
      have hk : ∀ c ∈ s, Spec.Kana c := fun c hc => (r2 c hc).2 rfl
      have e := sigmaLowered_eq h1 fun hm => hnk (hg s r1 hk _ hm)
      subst e
      exact ⟨(true, s) :: us, .cons (sigmaLowered_refl fun hm => hnk (hk _ hm)) h3, rfl⟩
    | false => exact ⟨(false, a) :: us, .cons h1 h3, rfl⟩

/-- **C137** `to_hiragana` on any text with kana and romaji: with the capital sigmas of the text replaced by small ones, as
lower-casing the text with its kana in hiragana does, the runs are converted independently of each other. -/
theorem C137_hiragana {std : Std} (hstd : std.Lawful) (s : Str) (o : Options) (ts : List (Bool × Str))
    (ho : o.pass_romaji = false) (hm : is_mixed s = true) (hr : Spec.KanaRuns ts s) :
    ∃ us, RunsLowered ts us ∧
      (∀ h h', katakana_to_hiragana std s = .ok h → katakana_to_hiragana std (us.flatMap (·.2)) = .ok h' →
        std.toLowercase h = std.toLowercase h') ∧
      ∀ conv : Bool × Str → Str,
        (∀ x ∈ us, x.1 = true → katakana_to_hiragana std x.2 = .ok (conv x)) →
        (∀ x ∈ us, x.1 = false → to_kana_with_opt std (std.toLowercase x.2) o = .ok (conv x)) →
        to_hiragana_with_opt std s o = .ok (us.flatMap conv) := by
  have e := k2hP_runs std false ts hr.runs hr.alternating
  rw [hr.text] at e
  have hg : ∀ t : Str, t ≠ [] → (∀ c ∈ t, Spec.Kana c) →
      k2hP std false none t ≠ [] ∧ ∀ c ∈ k2hP std false none t, Spec.Kana c := by
    intro t h0 hk
    refine ⟨?_, k2hP_allKana hstd false t hk⟩
    cases t with
    | nil => exact absurd rfl h0
    | cons c t =>
      obtain ⟨d, l, e, _⟩ := k2hP_head std false c t
      rw [e]; simp
  obtain ⟨t, h1, h2⟩ := lowerFrom_sigma hstd (k2hP std false none s) []
  rw [e] at h1
  obtain ⟨us, h3, rfl⟩ := runs_of_lowered (k2hP std false none) ts hr.runs (fun t h0 hk => (hg t h0 hk).2) t h1
  have hru := runsLowered_runs h3 hr.runs
  have hau := runsLowered_alternating h3 hr.alternating
  have e' := k2hP_runs std false us hru hau
  have hlow : std.toLowercase (k2hP std false none s) =
      std.toLowercase (us.flatMap fun x => if x.1 then k2hP std false none x.2 else x.2) := by
    unfold Std.toLowercase
    rw [h2, lower_noSigma std _ (sigmaLowered_noSigma h1)]
  refine ⟨us, h3, ?_, ?_⟩
  · intro h h' hh hh'
    rw [k2h_pure hstd] at hh hh'
    cases hh; cases hh'
    rw [hlow, e']
  · intro conv hk hn
    rw [to_hiragana_eq hstd]
    unfold hiraP
    rw [if_neg (by simp [ho]), if_pos hm, hlow]
    congr 1
    rw [kana_lower_runs hstd _ _ us _ ⟨hru, hau, rfl⟩ (runsLowered_noSigma h3) hg]
    apply flatMap_congr_left
    intro x hx
    cases hb : x.1 with
    | true =>
      have := hk x hx hb
      rw [k2h_pure hstd] at this
      rw [if_pos rfl]; exact Except.ok.inj this
    | false =>
      have := hn x hx hb
      rw [to_kana_eq hstd] at this
      rw [if_neg (by simp)]; exact Except.ok.inj this

/-- **C137** `to_katakana` on any text with kana and romaji, with the capital sigmas replaced as lower-casing the text
does -/
theorem C137_katakana {std : Std} (hstd : std.Lawful) (s : Str) (o : Options) (ts : List (Bool × Str))
    (ho : o.pass_romaji = false) (hm : is_mixed s = true) (hr : Spec.KanaRuns ts s) :
    ∃ us, RunsLowered ts us ∧ std.toLowercase s = std.toLowercase (us.flatMap (·.2)) ∧
      ∀ conv : Bool × Str → Str,
        (∀ x ∈ us, x.1 = true → hiragana_to_katakana x.2 = .ok (conv x)) →
        (∀ x ∈ us, x.1 = false →
          (to_kana_with_opt std (std.toLowercase x.2) o >>= hiragana_to_katakana) = .ok (conv x)) →
        to_katakana_with_opt std s o = .ok (us.flatMap conv) := by
  have hid : ∀ us : List (Bool × Str), (us.flatMap fun x => if x.1 then id x.2 else x.2) = us.flatMap (·.2) := by
    intro us
    apply flatMap_congr_left
    intro x _
    cases x.1 <;> rfl
  obtain ⟨t, h1, h2⟩ := lowerFrom_sigma hstd s []
  rw [← hr.text, ← hid] at h1
  obtain ⟨us, h3, rfl⟩ := runs_of_lowered id ts hr.runs (fun t _ hk => hk) t h1
  have hru := runsLowered_runs h3 hr.runs
  have hau := runsLowered_alternating h3 hr.alternating
  have hlow : std.toLowercase s = std.toLowercase (us.flatMap (·.2)) := by
    unfold Std.toLowercase
    rw [h2, lower_noSigma std _ (runsLowered_noSigma h3), hid]
  refine ⟨us, h3, hlow, ?_⟩
  intro conv hk hn
  rw [to_katakana_eq hstd]
  unfold kataP
  rw [if_neg (by simp [ho]), if_pos (by simp [hm]), hlow, ← hid us]
  congr 1
  rw [kana_lower_runs hstd _ id us _ ⟨hru, hau, rfl⟩ (runsLowered_noSigma h3) (fun t h0 hk => ⟨h0, hk⟩), List.map_flatMap]
  apply flatMap_congr_left
  intro x hx
  cases hb : x.1 with
  | true =>
    have := hk x hx hb
    rw [hiragana_to_katakana_eq] at this
    exact Except.ok.inj this
  | false =>
    have := hn x hx hb
    rw [to_kana_eq hstd, ok_bind, hiragana_to_katakana_eq] at this
    exact Except.ok.inj this

/-- a text with kana, romaji and a capital sigma that ends a word meets the hypotheses, and the result shows the small
final sigma -/
example : is_mixed "アkaΣあ".toList = true ∧
    Spec.KanaRuns [(true, "ア".toList), (false, "kaΣ".toList), (true, "あ".toList)] "アkaΣあ".toList ∧
    RunsLowered [(false, "kaΣ".toList)] [(false, "kaς".toList)] := by
  refine ⟨by decide +kernel, ⟨?_, ?_, rfl⟩, ?_⟩
  · intro x hx
    simp only [List.mem_cons, List.not_mem_nil, or_false] at hx
    rcases hx with rfl | rfl | rfl <;> refine ⟨by decide, ?_⟩ <;> decide
  · exact ⟨by decide, by decide, trivial⟩
  · exact .cons (.keep (by decide) (.keep (by decide) (.sigma (by decide) .nil))) .nil

example : to_katakana_with_opt rustStd "kaΣ ア".toList {} =
    .ok "カς ア".toList := by decide +kernel

end WanaKana
