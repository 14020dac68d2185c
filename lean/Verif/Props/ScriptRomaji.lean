import Verif.Props.Platform2
import Verif.Props.RomajiVu
import Verif.Props.RoundTrip3
import Verif.Props.KanaShift2
import Verif.Spec.ScriptRomaji
/-! # C133: exactly when the script of the kana does not matter for the romaji -/

namespace WanaKana
open Spec (toKata)

/-! ## to hiragana first -/

theorem longVowelV_dest (x : Char) {g : Char} (hk : Spec.KatakanaLetter g)
    (h : ¬ (Spec.toHira g ∈ Spec.columnO ∨ g = 'ヴ' ∧ x = 'o')) (hx : x ∈ ['a', 'i', 'u', 'e', 'o']) :
    Spec.longVowelV x true (Spec.toHira g) = Spec.longVowelV x false (Spec.toHira g) := by
  rw [not_or] at h
  unfold Spec.longVowelV
  by_cases hv : Spec.toHira g = 'ゔ'
  · have hg := toHira_letter_vu hk hv
    have hx' : x ≠ 'o' := fun e => h.2 ⟨hg, e⟩
    rw [if_pos hv, if_pos hv]
    simp only [List.mem_cons, List.not_mem_nil, or_false] at hx
    rcases hx with rfl | rfl | rfl | rfl | rfl
    all_goals first | rfl | exact absurd rfl hx'
  · rw [if_neg hv, if_neg hv]
    unfold Spec.longVowel
    simp only [h.1, if_false]

theorem hiraFromV_dest {x : Char} (hx : x ∈ ['a', 'i', 'u', 'e', 'o']) (s : Str) : ∀ before : Str,
    (∀ a b g, s = a ++ 'ー' :: b → Spec.governing (before ++ a) = some g → Spec.KatakanaLetter g →
      ¬ (Spec.toHira g ∈ Spec.columnO ∨ g = 'ヴ' ∧ x = 'o')) →
    Spec.hiraFromV x true before s = Spec.hiraFromV x false before s := by
  induction s with
  | nil => intro _ _; rfl
  | cons c s ih =>
    intro before h
    rw [Spec.hiraFromV, Spec.hiraFromV, ih (before ++ [c]) (fun a b g e hg => by
      refine h (c :: a) b g (by rw [e]; rfl) (by simpa using hg))]
    congr 1
    by_cases hc : c = 'ー'
    · rw [if_pos hc, if_pos hc]
      unfold Spec.markAfterV
      cases hgv : Spec.governing before with
      | none => rfl
      | some g =>
        simp only
        by_cases hk : Spec.KatakanaLetter g
        · rw [if_pos hk, if_pos hk]
          exact longVowelV_dest x hk (h [] s g (by rw [hc]; rfl) (by simpa using hgv) hk) hx
        · rw [if_neg hk, if_neg hk]
    · rw [if_neg hc, if_neg hc]

theorem hiraFromV_destO {x : Char} (hx : x ∈ ['a', 'i', 'u', 'e', 'o']) {s : Str} (h : ¬ Spec.ProlongedO x s) :
    Spec.hiraFromV x true [] s = Spec.hiraFromV x false [] s :=
  hiraFromV_dest hx s [] fun a b g e hg hk hb => h ⟨a, b, g, e, by simpa using hg, hk, hb⟩

theorem firstO (x : Char) (n : Nat) : ∀ s : Str, s.length ≤ n → Spec.ProlongedO x s →
    ∃ a b g, s = a ++ 'ー' :: b ∧ Spec.governing a = some g ∧ Spec.KatakanaLetter g ∧
      (Spec.toHira g ∈ Spec.columnO ∨ g = 'ヴ' ∧ x = 'o') ∧ ¬ Spec.ProlongedO x a := by
  induction n with
  | zero =>
    rintro s hs ⟨a, b, g, rfl, -⟩
    simp at hs
  | succ n ih =>
    rintro s hs ⟨a, b, g, rfl, hg, hk, hb⟩
    by_cases hp : Spec.ProlongedO x a
    · obtain ⟨p, q, g', rfl, h1, h2, h3, h4⟩ := ih a (by simp at hs; omega) hp
      exact ⟨p, q ++ 'ー' :: b, g', by simp, h1, h2, h3, h4⟩
    · exact ⟨a, b, g, rfl, hg, hk, hb, hp⟩

/-- what begins with お begins with o in romaji, what begins with う does not -/
theorem romH_ou {std : Std} (hstd : std.Lawful) (u : Str) :
    (romH std ('お' :: u)).head? = some 'o' ∧ (romH std ('う' :: u)).head? ≠ some 'o' := by
  have hc : (TO_ROMAJI_NODE_TREE.paths.all fun q => match q.1.head? with
      | some 'お' => q.2.output.head? == some 'o'
      | some 'う' => q.2.output.head?.any (· != 'o')
      | _ => true) = true := by decide +kernel
  have key : ∀ c ∈ ['お', 'う'], ∃ n k r, k ≠ 0 ∧ romH std (c :: u) = n.output ++ r ∧
      TO_ROMAJI_NODE_TREE.rwalk std ((c :: u).take k) = some n := by
    intro c hcm
    obtain ⟨n, k, -, hs⟩ := RNode.rgetLoop_ok hstd (c :: u) 0 romaji_sorted
    have hk : k ≠ 0 := by
      rintro rfl
      have h1 := hs.walk
      have h2 := hs.stop c rfl
      rw [List.take_zero] at h1
      cases h1
      obtain ⟨m, hm⟩ := root_some hstd (c := c) (by
        simp only [List.mem_cons, List.not_mem_nil, or_false] at hcm
        rcases hcm with rfl | rfl <;> decide)
      rw [hm] at h2
      cases h2
    exact ⟨n, k, _, hk, romH_hit hs hk, hs.walk⟩
  have hd : ∀ (c : Char) {k : Nat}, k ≠ 0 → ((c :: u).take k).head? = some c := by
    intro c k hk
    obtain ⟨k, rfl⟩ := Nat.exists_eq_succ_of_ne_zero hk
    rfl
  constructor
  · obtain ⟨n, k, r, hk, e, hw⟩ := key 'お' (by simp)
    have := rwalk_check hstd hc hw
    simp only [hd _ hk, beq_iff_eq] at this
    rw [e, List.head?_append, this]
    rfl
  · obtain ⟨n, k, r, hk, e, hw⟩ := key 'う' (by simp)
    have := rwalk_check hstd hc hw
    simp only [hd _ hk] at this
    rw [e, List.head?_append]
    cases hh : n.output.head? with
    | none => rw [hh] at this; cases this
    | some d =>
      rw [hh] at this
      intro e'
      simp only [Option.some_or, Option.some.injEq] at e'
      rw [e'] at this
      revert this; decide

theorem governing_bar (a : Str) : Spec.governing (a ++ ['ー']) = Spec.governing a := by
  unfold Spec.governing
  rw [List.reverse_append, List.reverse_singleton, List.singleton_append, List.dropWhile_cons, if_pos (by decide)]

theorem governing_last {a : Str} {d : Char} (h : d ∉ Spec.chain) : Spec.governing (a ++ [d]) = some d := by
  unfold Spec.governing
  rw [List.reverse_append, List.reverse_singleton, List.singleton_append, List.dropWhile_cons, if_neg (by simpa using h)]
  rfl

/-- the kana before the first such mark does not merge with the vowel written for the mark -/
theorem before_mark {x : Char} {a : Str} {g : Char} (hg : Spec.governing a = some g) (hk : Spec.KatakanaLetter g)
    (hb : Spec.toHira g ∈ Spec.columnO ∨ g = 'ヴ' ∧ x = 'o') (hn : ¬ Spec.ProlongedO x a) {c : Char}
    (hc : (Spec.hiraFromV x true [] a).getLast? = some c) {v : Char} (hv : v ∈ ['お', 'う']) : pairOk c v = false := by
  rcases List.eq_nil_or_concat a with rfl | ⟨a', d, e⟩
  · cases hc
  · rw [List.concat_eq_append] at e
    subst e
    have hd : d ≠ 'ー' := by
      rintro rfl
      rw [governing_bar] at hg
      exact hn ⟨a', [], g, rfl, hg, hk, hb⟩
    rw [hiraFromV_append, Spec.hiraFromV, if_neg hd, Spec.hiraFromV, List.append_nil, List.getLast?_append,
      List.getLast?_singleton] at hc
    simp only [Option.some_or, Option.some.injEq] at hc
    subst hc
    have key : Spec.toHira d ≠ 'っ' ∧ Spec.toHira d ≠ 'ん' := by
      by_cases hch : d ∈ Spec.chain
      · simp only [Spec.chain, List.mem_cons, List.not_mem_nil, or_false] at hch
        rcases hch with rfl | rfl | rfl | rfl
        · exact absurd rfl hd
        all_goals decide
      · rw [governing_last hch, Option.some.injEq] at hg
        subst hg
        rcases hb with hb | ⟨rfl, -⟩
        · constructor <;> · intro e; rw [e] at hb; revert hb; decide
        · decide
    unfold pairOk
    simp only [List.mem_cons, List.not_mem_nil, or_false] at hv
    rcases hv with rfl | rfl <;> simp [key.1, key.2, Spec.smallKana]

theorem vuOf_of {std : Std} (hstd : std.Lawful) {o : Options} (ho : o.upcase_katakana = false) {x : Char}
    (h : to_romaji_with_opt std "ゔ".toList o = .ok ['v', x]) : vuOf std = x := by
  rw [to_romaji_eq hstd, ho, rom_romH, flagged_fst hstd, Except.ok.injEq, (vu_form std).1] at h
  obtain ⟨n, hn, -, hl⟩ := vu_node hstd
  rw [romH_walk_end (by simp) hn] at h
  rw [h] at hl
  exact hl.symm

/-- **C133** Writing the katakana of a text as hiragana keeps the romaji exactly if no long vowel mark prolongs a katakana
letter ending in o: such a mark becomes う.  `x` is the vowel written for ゔ, which counts as ending in o if `x` is o. -/
theorem C133_hiragana {std : Std} (hstd : std.Lawful) (s h : Str) (o : Options) (ho : o.upcase_katakana = false) (x : Char)
    (hx : to_romaji_with_opt std "ゔ".toList o = .ok ['v', x]) (hh : katakana_to_hiragana std s = .ok h) :
    to_romaji_with_opt std h o = to_romaji_with_opt std s o ↔ ¬ Spec.ProlongedO x s := by
  have hv := vuOf_of hstd ho hx
  have hxm := vuOf_mem hstd
  rw [hv] at hxm
  have hr : ∀ t, to_romaji_with_opt std t o = .ok (romH std (Spec.hiraFromV x true [] t)) := by
    intro t
    rw [to_romaji_eq hstd, ho, rom_romH, flagged_fst hstd, k2hP_form_vu hstd, hv]
  have e1 : h = Spec.hiraFromV x false [] s := by
    have := k2h_eq hstd s false
    rw [k2hP_form_vu hstd, hv] at this
    exact Except.ok.inj (hh.symm.trans this)
  have e2 : Spec.hiraFromV x true [] h = h := by
    have := C23_idempotent hstd s h false true hh
    rw [k2h_eq hstd, k2hP_form_vu hstd, hv, Except.ok.injEq] at this
    exact this
  rw [hr, hr, e2, Except.ok.injEq, e1]
  constructor
  · intro h hp
    obtain ⟨a, b, g, rfl, hg, hk, hb, hn⟩ := firstO x _ _ (Nat.le_refl _) hp
    have hm : ∀ d, Spec.markAfterV x d a = [if d then 'お' else 'う'] := by
      intro d
      unfold Spec.markAfterV
      rw [hg]
      simp only [if_pos hk]
      rcases hb with hb | ⟨rfl, rfl⟩
      · have hc : (Spec.columnO.all fun c => decide (c ≠ 'ゔ' ∧ ∀ d, Spec.longVowel d c = [if d then 'お' else 'う'])) =
            true := by decide +kernel
        have := of_decide_eq_true (List.all_eq_true.1 hc _ hb)
        unfold Spec.longVowelV
        rw [if_neg this.1, this.2]
      · cases d <;> decide
    rw [hiraFromV_append, hiraFromV_append, ← hiraFromV_destO hxm hn, Spec.hiraFromV, Spec.hiraFromV, if_pos rfl, if_pos rfl,
      List.nil_append, hm, hm] at h
    have cut : ∀ v ∈ ['お', 'う'], ∀ u, romH std (Spec.hiraFromV x true [] a ++ v :: u) =
        romH std (Spec.hiraFromV x true [] a) ++ romH std (v :: u) := by
      intro v hv u
      have := rom_append_pair hstd false ((v :: u).map fun c => (c, false))
        ((Spec.hiraFromV x true [] a).map fun c => (c, false)) (by
          intro y z hy hz
          rw [List.getLast?_map, Option.map_eq_some_iff] at hy
          obtain ⟨c, hc, rfl⟩ := hy
          rw [List.map_cons, List.head?_cons, Option.some.injEq] at hz
          subst hz
          exact before_mark hg hk hb hn hc hv)
      rw [← List.map_append] at this
      exact this
    simp only [if_true, Bool.false_eq_true, if_false, List.singleton_append] at h
    rw [cut 'う' (by simp), cut 'お' (by simp)] at h
    have := congrArg List.head? (List.append_cancel_left h)
    rw [(romH_ou hstd _).1] at this
    exact (romH_ou hstd _).2 this
  · intro hp
    rw [hiraFromV_destO hxm hp]

/-! ## to katakana first -/

theorem rom_copied_count {std : Std} (hstd : std.Lawful) {d : Char} (hd : d ∈ ['ゕ', 'ゖ']) (up : Bool) :
    ∀ z : List (Char × Bool), (rom std up z).count d = (z.map Prod.fst).count d := by
  intro z
  have hc : (TO_ROMAJI_NODE_TREE.paths.all fun x => ['ゕ', 'ゖ'].all fun d => x.1.count d == 0 && x.2.output.count d == 0 &&
      (x.2.output.map aUp).count d == 0) = true := by decide +kernel
  induction z using rom_ind (std := std) with
  | nil => rw [rom_nil]; rfl
  | miss c b z h ih => rw [rom_miss h, List.map_cons, List.count_cons, List.count_cons, ih]
  | hit z n k hk h ih =>
    have hw := List.all_eq_true.1 (rwalk_check hstd hc h.walk) d hd
    simp only [Bool.and_eq_true, beq_iff_eq] at hw
    obtain ⟨⟨h1, h2⟩, h3⟩ := hw
    have e : (z.map Prod.fst).count d = ((z.map Prod.fst).take k).count d + ((z.drop k).map Prod.fst).count d := by
      rw [← List.count_append, List.map_drop, List.take_append_drop]
    rw [rom_hit h hk, List.count_append, ih, e, h1]
    split
    · rw [h3]
    · rw [h2]

theorem hiraFromV_count_other (x : Char) {d : Char} (hd : d ∈ ['ゕ', 'ゖ', '-']) (s : Str) : ∀ before,
    (Spec.hiraFromV x true before s).count d = s.count d := by
  have h1 : d ∉ ['あ', 'い', 'う', 'え', 'お', 'ー'] := by
    simp only [List.mem_cons, List.not_mem_nil, or_false] at hd
    rcases hd with rfl | rfl | rfl <;> decide
  have h2 : ∀ c, Spec.toHira c = d ↔ c = d := by
    intro c
    simp only [List.mem_cons, List.not_mem_nil, or_false] at hd
    rcases hd with rfl | rfl | rfl
    all_goals
      simp only [char_eq_iff, toHira_toNat, Char.reduceToNat]
      repeat' split
      all_goals omega
  induction s with
  | nil => intro _; rfl
  | cons c s ih =>
    intro before
    rw [Spec.hiraFromV, List.count_append, ih, List.count_cons]
    by_cases hc : c = 'ー'
    · have hne : (c == d) = false := by
        rw [beq_eq_false_iff_ne]
        rintro rfl
        rw [hc] at h1
        exact h1 (by decide)
      rw [if_pos hc, hne]
      have : (Spec.markAfterV x true before).count d = 0 := by
        apply List.count_eq_zero.2
        intro hm
        rcases hiraFromV_mem x true ['ー'] before d (by rw [Spec.hiraFromV, if_pos rfl]; simpa [Spec.hiraFromV] using hm) with
          ⟨c', hc', e⟩ | h
        · rw [List.mem_singleton.1 hc'] at e
          rw [e] at h1
          exact h1 (by decide)
        · exact h1 h
      rw [this]
      simp
    · rw [if_neg hc, List.count_singleton]
      have : (Spec.toHira c == d) = (c == d) := by
        rw [Bool.eq_iff_iff, beq_iff_eq, beq_iff_eq, h2]
      rw [this]
      omega

theorem toKata_bar (c : Char) : toKata c = 'ー' ↔ c = 'ー' := by
  simp only [char_eq_iff, Char.reduceToNat, toKata_toNat]
  split <;> omega

theorem mark_count (x : Char) (b : Str) : (Spec.markAfterV x true b).count 'ー' =
    if ∃ g, Spec.governing b = some g ∧ Spec.KatakanaLetter g then 0 else 1 := by
  unfold Spec.markAfterV
  cases hg : Spec.governing b with
  | none => simp
  | some g =>
    by_cases hk : Spec.KatakanaLetter g
    · simp only [if_pos hk]
      rw [if_pos ⟨g, rfl, hk⟩]
      apply List.count_eq_zero.2
      intro h
      unfold Spec.longVowelV Spec.longVowel at h
      repeat' split at h
      all_goals simp at h
    · simp only [if_neg hk]
      rw [if_neg]
      · decide
      · rintro ⟨g', e, h⟩
        cases e
        exact hk h

theorem toKata_letter {g : Char} :
    Spec.KatakanaLetter (toKata g) ↔ Spec.KatakanaLetter g ∨ Spec.HiraganaLetter g := by
  simp only [Spec.KatakanaLetter, Spec.HiraganaLetter, Spec.In, toKata_toNat] at *
  split <;> omega

theorem toKata_hira {g : Char} (h1 : g ≠ 'ゕ') (h2 : g ≠ 'ゖ') : Spec.toHira (toKata g) = Spec.toHira g := by
  simp only [toHira_toNat, toKata_toNat, char_eq_iff, ne_eq, Char.reduceToNat] at *
  repeat' split
  all_goals omega

/-- fewer marks stay once the hiragana are katakana -/
theorem bars_kata (x : Char) (s : Str) : ∀ before : Str, (∀ c ∈ before ++ s, c ≠ 'ゕ' ∧ c ≠ 'ゖ') →
    (Spec.hiraFromV x true (before.map toKata) (s.map toKata)).count 'ー' ≤ (Spec.hiraFromV x true before s).count 'ー' ∧
    ((Spec.hiraFromV x true (before.map toKata) (s.map toKata)).count 'ー' = (Spec.hiraFromV x true before s).count 'ー' →
      ∀ a b, s = a ++ 'ー' :: b → ∀ g, Spec.governing (before ++ a) = some g → ¬ Spec.HiraganaLetter g) := by
  induction s with
  | nil => intro _ _; exact ⟨Nat.le_refl _, fun _ a b e => by simp at e⟩
  | cons c s ih =>
    intro before hs
    obtain ⟨i1, i2⟩ := ih (before ++ [c]) (by simpa using hs)
    rw [List.map_append, List.map_singleton] at i1 i2
    rw [List.map_cons, Spec.hiraFromV, Spec.hiraFromV, List.count_append, List.count_append]
    by_cases hc : c = 'ー'
    · rw [if_pos hc, if_pos ((toKata_bar c).2 hc), mark_count, mark_count,
        governing_map_toKata before fun d hd => hs d (by simp [hd])]
      have hmem : ∀ g, Spec.governing before = some g → g ≠ 'ゕ' ∧ g ≠ 'ゖ' :=
        fun g hg => hs g (List.mem_append_left _ (governing_mem hg).1)
      by_cases h : ∃ g, Spec.governing before = some g ∧ Spec.KatakanaLetter g
      · obtain ⟨g, hg, hk⟩ := h
        have hkk := toKata_letter.2 (Or.inl hk)
        rw [if_pos ⟨toKata g, by rw [hg]; rfl, hkk⟩, if_pos ⟨g, hg, hk⟩]
        refine ⟨by omega, fun h a b e g' hg' => ?_⟩
        cases a with
        | nil =>
          rw [List.append_nil, hg, Option.some.injEq] at hg'
          subst hg'
          unfold Spec.KatakanaLetter Spec.In at hk
          unfold Spec.HiraganaLetter Spec.In
          omega
        | cons d a =>
          injection e with e3 e4
          subst e3
          exact i2 (by omega) a b e4 g' (by simpa using hg')
      · rw [if_neg h]
        refine ⟨by split <;> omega, fun he a b e g' hg' => ?_⟩
        cases a with
        | nil =>
          rw [List.append_nil] at hg'
          intro hl
          rw [if_pos ⟨toKata g', by rw [hg']; rfl, toKata_letter.2 (Or.inr hl)⟩] at he
          omega
        | cons d a =>
          injection e with e3 e4
          subst e3
          refine i2 ?_ a b e4 g' (by simpa using hg')
          split at he <;> omega
    · have hk := mt (toKata_bar c).1 hc
      rw [if_neg hc, if_neg hk, toKata_hira (hs c (by simp)).1 (hs c (by simp)).2]
      refine ⟨by omega, fun h a b e g' hg' => ?_⟩
      cases a with
      | nil => injection e with e3; exact absurd e3 hc
      | cons d a =>
        injection e with e3 e4
        subst e3
        exact i2 (by omega) a b e4 g' (by simpa using hg')

theorem hiraFromV_kata (x : Char) (s : Str) : ∀ before : Str, (∀ c ∈ before ++ s, c ≠ 'ゕ' ∧ c ≠ 'ゖ') →
    (∀ a b, s = a ++ 'ー' :: b → ∀ g, Spec.governing (before ++ a) = some g → ¬ Spec.HiraganaLetter g) →
    Spec.hiraFromV x true (before.map toKata) (s.map toKata) = Spec.hiraFromV x true before s := by
  induction s with
  | nil => intro _ _ _; rfl
  | cons c s ih =>
    intro before hs h
    have := ih (before ++ [c]) (by simpa using hs) (fun a b e g hg => h (c :: a) b (by rw [e]; rfl) g (by simpa using hg))
    rw [List.map_append, List.map_singleton] at this
    rw [List.map_cons, Spec.hiraFromV, Spec.hiraFromV, this]
    congr 1
    by_cases hc : c = 'ー'
    · rw [if_pos hc, if_pos ((toKata_bar c).2 hc)]
      unfold Spec.markAfterV
      rw [governing_map_toKata before fun d hd => hs d (by simp [hd])]
      cases hg : Spec.governing before with
      | none => rfl
      | some g =>
        have hn := h [] s (by rw [hc]; rfl) g (by simpa using hg)
        obtain ⟨h1, h2⟩ := hs g (List.mem_append_left _ (governing_mem hg).1)
        have hl := toKata_letter (g := g)
        simp only [Option.map_some, hl, hn, or_false, toKata_hira h1 h2]
    · rw [if_neg hc, if_neg (mt (toKata_bar c).1 hc), toKata_hira (hs c (by simp)).1 (hs c (by simp)).2]

/-- **C133** Writing the hiragana of a text as katakana keeps the romaji exactly if the text has no ゕ ゖ and no long vowel
mark prolonging a hiragana letter: such a mark is a hyphen in the romaji, after katakana it is a vowel. -/
theorem C133_katakana {std : Std} (hstd : std.Lawful) (s k : Str) (o : Options) (ho : o.upcase_katakana = false)
    (hk : hiragana_to_katakana s = .ok k) :
    to_romaji_with_opt std k o = to_romaji_with_opt std s o ↔
      'ゕ' ∉ s ∧ 'ゖ' ∉ s ∧ ¬ Spec.ProlongedHiragana s := by
  have hr : ∀ t, to_romaji_with_opt std t o = .ok (romH std (Spec.hiraFromV (vuOf std) true [] t)) := by
    intro t
    rw [to_romaji_eq hstd, ho, rom_romH, flagged_fst hstd, k2hP_form_vu hstd]
  rw [C22_charwise, Except.ok.injEq] at hk
  subst hk
  rw [hr, hr, Except.ok.injEq]
  have mf : ∀ l : Str, ((l.map fun c => (c, false)).map Prod.fst) = l := by
    intro l; rw [List.map_map]; exact List.map_id _
  constructor
  · intro h
    have hcp : ∀ d ∈ ['ゕ', 'ゖ'], d ∉ s := by
      intro d hd
      have := congrArg (List.count d) h
      unfold romH at this
      have hd' : d ∈ ['ゕ', 'ゖ', '-'] := by
        simp only [List.mem_cons, List.not_mem_nil, or_false] at hd ⊢
        rcases hd with h | h <;> simp [h]
      rw [rom_copied_count hstd hd, rom_copied_count hstd hd, mf, mf, hiraFromV_count_other _ hd', hiraFromV_count_other _ hd']
        at this
      apply List.count_eq_zero.1
      rw [← this]
      apply List.count_eq_zero.2
      rw [List.mem_map]
      rintro ⟨c, -, e⟩
      simp only [List.mem_cons, List.not_mem_nil, or_false] at hd
      rw [char_eq_iff, toKata_toNat] at e
      rcases hd with rfl | rfl
      all_goals
        simp only [Char.reduceToNat] at e
        split at e <;> omega
    refine ⟨hcp _ (by simp), hcp _ (by simp), ?_⟩
    rintro ⟨a, b, g, e, hg, hl⟩
    have hb := bars_kata (vuOf std) s [] (by
      intro c hc
      constructor
      · rintro rfl; exact hcp 'ゕ' (by simp) (by simpa using hc)
      · rintro rfl; exact hcp 'ゖ' (by simp) (by simpa using hc))
    have := congrArg (List.count '-') h
    unfold romH at this
    rw [rom_count hstd, rom_count hstd, mf, mf, hiraFromV_count_other _ (d := '-') (by simp), hiraFromV_count_other _ (d := '-') (by simp)] at this
    have hm : (s.map toKata).count '-' = s.count '-' := by
      clear this hb h hcp e
      induction s with
      | nil => rfl
      | cons c s ih =>
        rw [List.map_cons, List.count_cons, List.count_cons, ih]
        have : (toKata c == '-') = (c == '-') := by
          rw [Bool.eq_iff_iff, beq_iff_eq, beq_iff_eq, char_eq_iff, char_eq_iff, toKata_toNat]
          simp only [Char.reduceToNat]
          split <;> omega
        rw [this]
    rw [hm] at this
    exact hb.2 (by rw [List.map_nil]; omega) a b e g (by simpa using hg) hl
  · rintro ⟨h1, h2, h3⟩
    have := hiraFromV_kata (vuOf std) s [] (by
      intro c hc
      constructor
      · rintro rfl; exact h1 (by simpa using hc)
      · rintro rfl; exact h2 (by simpa using hc)) (fun a b e g hg hl => h3 ⟨a, b, g, e, by simpa using hg, hl⟩)
    rw [List.map_nil] at this
    rw [this]

/-- marks of both kinds exist -/
example : Spec.ProlongedO 'o' "コーヒー".toList ∧ Spec.ProlongedHiragana "すーぱー".toList ∧
    katakana_to_hiragana rustStd "コーヒー".toList = .ok "こうひい".toList ∧
    to_romaji rustStd "こうひい".toList = .ok "kouhii".toList ∧ to_romaji rustStd "コーヒー".toList = .ok "koohii".toList ∧
    to_romaji rustStd "すーぱー".toList = .ok "su-pa-".toList ∧ to_romaji rustStd "スーパー".toList = .ok "suupaa".toList :=
  ⟨⟨['コ'], ['ヒ', 'ー'], 'コ', rfl, by decide, by decide, by decide⟩, ⟨['す'], ['ぱ', 'ー'], 'す', rfl, by decide, by decide⟩,
    by decide +kernel, by decide +kernel, by decide +kernel, by decide +kernel, by decide +kernel⟩

end WanaKana
