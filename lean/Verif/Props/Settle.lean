import Verif.Proofs.Settle
import Verif.Proofs.Grow
/-! # C122: converting back and forth ends, or the text grows without end -/

namespace WanaKana
open KNode RNode
open Spec (toHira kanaTable)

/-- `n` times to kana and back to romaji -/
def trips (std : Std) (o o' : Options) : Nat → Str → Res Str
  | 0, s => .ok s
  | n + 1, s => to_kana_with_opt std s o' >>= fun k => to_romaji_with_opt std k o >>= fun r => trips std o o' n r

/-- one trip -/
def tripP (std : Std) (m : Mode) (s : Str) : Str := romH std (k2hP std true none (kana m s))

def tripsP (std : Std) (m : Mode) : Nat → Str → Str
  | 0, s => s
  | n + 1, s => tripsP std m n (tripP std m s)

theorem to_romaji_romH {std : Std} (hstd : std.Lawful) (k : Str) {o : Options} (hu : o.upcase_katakana = false) :
    to_romaji_with_opt std k o = .ok (romH std (k2hP std true none k)) := by
  rw [to_romaji_eq hstd, hu, rom_romH, flagged_fst hstd]

theorem trips_eq {std : Std} (hstd : std.Lawful) {o : Options} (hu : o.upcase_katakana = false) (o' : Options) (n : Nat) :
    ∀ s, trips std o o' n s = .ok (tripsP std (modeOf o') n s) := by
  induction n with
  | zero => intro s; rfl
  | succ n ih =>
    intro s
    rw [trips, to_kana_eq hstd, ok_bind, to_romaji_romH hstd _ hu, ok_bind, ih]
    rfl

theorem tripsP_add (std : Std) (m : Mode) (j : Nat) : ∀ (i : Nat) (s : Str), tripsP std m (i + j) s = tripsP std m j (tripsP std m i s) := by
  intro i
  induction i with
  | zero => intro s; rw [Nat.zero_add]; rfl
  | succ i ih => intro s; rw [Nat.add_right_comm]; exact ih _

/-! ## ゔ -/

theorem vu_shift {std : Std} (hstd : std.Lawful) (k : Str) : 'ゔ' ∈ k2hP std true none k ↔ 'ゔ' ∈ k ∨ 'ヴ' ∈ k := by
  constructor
  · intro h
    apply Classical.byContradiction
    intro hn
    rw [not_or] at hn
    have h1 := k2hP_weigh0 hstd true (w := fun c => if c.toNat = 0x3094 ∨ c.toNat = 0x30F4 then 1 else 0) (by
      intro c h1 h2
      rw [k2hChar_toNat h1 h2]
      repeat' split
      all_goals omega) (by decide) k prevOk_none
    rw [weigh_zero (s := k)] at h1
    · obtain ⟨a, b, e⟩ := List.append_of_mem h
      rw [e, weigh_append, weigh_cons] at h1
      have h2 : 'ゔ'.toNat = 0x3094 := by decide
      simp only [h2, true_or, if_true] at h1
      omega
    · intro c hc
      rw [if_neg]
      rintro (h2 | h2)
      · exact hn.1 (by rwa [show 'ゔ' = c from (char_eq_iff.2 (by rw [h2]; decide)).symm])
      · exact hn.2 (by rwa [show 'ヴ' = c from (char_eq_iff.2 (by rw [h2]; decide)).symm])
  · rintro (h | h)
    · obtain ⟨a, b, rfl⟩ := List.append_of_mem h
      rw [k2hP_append, k2hP_cons, if_neg (by decide), if_neg (by decide), if_neg (by decide)]
      simp
    · obtain ⟨a, b, rfl⟩ := List.append_of_mem h
      rw [k2hP_append, k2hP_cons, if_neg (by decide), if_neg (by decide), if_pos (by decide),
        show k2hChar 'ヴ' = 'ゔ' by decide]
      simp

/-! ## the end -/

theorem weight_le {m : Mode} (hm : m ≠ .ime) (s : Str) :
    (kana m s).countP heavy + weigh loose (kana m s) ≤ 3 * s.length := by
  induction s with
  | nil => rw [kana_nil]; exact Nat.le_refl _
  | cons c s ih =>
    have h1 := kana_cons_heavy hm c s
    have h2 : weigh loose (kana m (c :: s)) ≤ 2 + weigh loose (kana m s) := by
      rcases loose_cons hm c s with h | ⟨a, t, l, _, hl, h, _⟩
      · have := loose_le c
        rw [h, weigh_cons]; omega
      · omega
    rw [List.length_cons]
    omega

theorem canonical_trips {std : Std} (hstd : std.Lawful) {m : Mode} (hm : m ≠ .ime) {r : Str}
    (h : Spec.CanonicalText (tableOf m) (obsOf m) r) : tripP std m r = r := by
  have hn := normal_canonical hstd hm h
  unfold tripP
  rw [k2hP_id]
  · exact hn.rom
  · intro d hd
    have := hn.plain d hd
    simp only [plainChar, Bool.and_eq_true, Bool.or_eq_true, Bool.not_eq_true'] at this
    exact or_assoc.1 this.2

theorem tripsP_fixed {std : Std} {m : Mode} {r : Str} (h : tripP std m r = r) : ∀ n, tripsP std m n r = r := by
  intro n
  induction n with
  | zero => rfl
  | succ n ih => rw [tripsP, h, ih]

/-- one trip: the romaji are canonical, or something gets lighter -/
theorem settle_step {std : Std} (hstd : std.Lawful) {m : Mode} (hm : m ≠ .ime) (o : Options) (hu : o.upcase_katakana = false)
    {x y : Char} (hx : to_romaji_with_opt std "ゔ".toList o = .ok ['v', x]) (hxu : x ≠ 'u')
    (hy : to_romaji_with_opt std "っゔ".toList o = .ok ['v', 'v', y]) (hyu : y ≠ 'u') {s : Str}
    (hv : 'ゔ' ∉ k2hP std true none (kana m s)) :
    Spec.CanonicalText (tableOf m) (obsOf m) (tripP std m s) ∨
    (kana m (tripP std m s)).countP heavy + weigh loose (kana m (tripP std m s)) <
      (kana m s).countP heavy + weigh loose (kana m s) := by
  obtain ⟨hxv, hyv, ps, e0, hps, hsuf⟩ := text_pieces hstd (kana m s) o hu hx hxu hy hyu
  have h1 := heavy_shift hstd (kana m s)
  have h2 := loose_shift hstd (kana m s)
  have h3 := pieces_heavy hm hxv hyv hxu hyu ps hps
  have h4 := pieces_loose hm hxv hyv hxu hyu ps hps
  have e : tripP std m s = (ps.map Prod.snd).flatten := by
    unfold tripP
    rw [e0]
    exact hsuf [] ps rfl
  rw [e0] at h1 h2 hv
  rw [e]
  by_cases hc : (kana m (ps.map Prod.snd).flatten).countP heavy = ((ps.map Prod.fst).flatten).countP heavy
  · have hps' : ∀ p ∈ ps, RPiece p ∨ LPiece p := by
      intro p hp
      rcases hps p hp with h | h | h
      · exact Or.inl h
      · exfalso
        apply hv
        rw [List.mem_flatten]
        refine ⟨p.1, List.mem_map_of_mem hp, ?_⟩
        rcases h with rfl | rfl <;> simp
      · exact Or.inr h
    rcases canonical_or_fewer hm hxv hyv hxu hyu ps hps' hc with h | h
    · exact Or.inl h
    · right; omega
  · right; omega

theorem settle {std : Std} (hstd : std.Lawful) {m : Mode} (hm : m ≠ .ime) (o : Options) (hu : o.upcase_katakana = false)
    {x y : Char} (hx : to_romaji_with_opt std "ゔ".toList o = .ok ['v', x]) (hxu : x ≠ 'u')
    (hy : to_romaji_with_opt std "っゔ".toList o = .ok ['v', 'v', y]) (hyu : y ≠ 'u') : ∀ (N : Nat) (s : Str),
    (kana m s).countP heavy + weigh loose (kana m s) ≤ N →
    (∃ t, Spec.CanonicalText (tableOf m) (obsOf m) t ∧ ∀ n, N + 1 ≤ n → tripsP std m n s = t) ∨
    ∃ i, i ≤ N ∧ 'ゔ' ∈ k2hP std true none (kana m (tripsP std m i s)) := by
  intro N
  induction N with
  | zero =>
    intro s hs
    by_cases hv : 'ゔ' ∈ k2hP std true none (kana m s)
    · exact Or.inr ⟨0, Nat.le_refl _, hv⟩
    · left
      rcases settle_step hstd hm o hu hx hxu hy hyu hv with h | h
      · refine ⟨_, h, ?_⟩
        intro n hn
        obtain ⟨n, rfl⟩ : ∃ k, n = k + 1 := ⟨n - 1, by omega⟩
        exact tripsP_fixed (canonical_trips hstd hm h) n
      · omega
  | succ N ih =>
    intro s hs
    by_cases hv : 'ゔ' ∈ k2hP std true none (kana m s)
    · exact Or.inr ⟨0, Nat.zero_le _, hv⟩
    · rcases settle_step hstd hm o hu hx hxu hy hyu hv with h | h
      · left
        refine ⟨_, h, ?_⟩
        intro n hn
        obtain ⟨n, rfl⟩ : ∃ k, n = k + 1 := ⟨n - 1, by omega⟩
        exact tripsP_fixed (canonical_trips hstd hm h) n
      · rcases ih (tripP std m s) (by omega) with ⟨t, ht, h1⟩ | ⟨i, hi, h1⟩
        · left
          refine ⟨t, ht, ?_⟩
          intro n hn
          obtain ⟨n, rfl⟩ : ∃ k, n = k + 1 := ⟨n - 1, by omega⟩
          exact h1 n (by omega)
        · exact Or.inr ⟨i + 1, by omega, h1⟩

/-! ## growth -/

theorem grow {std : Std} (hstd : std.Lawful) (m : Mode) (o : Options) (hu : o.upcase_katakana = false)
    {x y : Char} (hx : to_romaji_with_opt std "ゔ".toList o = .ok ['v', x]) (hxu : x ≠ 'u')
    (hy : to_romaji_with_opt std "っゔ".toList o = .ok ['v', 'v', y]) (hyu : y ≠ 'u') (n : Nat) : ∀ {j : Nat} {r : Str},
    Grown j r → Grown (j + n) (tripsP std m n r) := by
  induction n with
  | zero => intro j r h; exact h
  | succ n ih =>
    intro j r h
    have := ih (grown_trip hstd m o hu hx hxu hy hyu h)
    rw [Nat.add_right_comm] at this
    exact this

/-! ## texts without v -/

/-- neither v nor ゔ -/
def noV (c : Char) : Bool := !decide (c.toNat = 0x76 ∨ c.toNat = 0x56 ∨ c.toNat = 0x3094 ∨ c.toNat = 0x30F4)

theorem noV_iff {c : Char} : noV c = true ↔ c ≠ 'v' ∧ c ≠ 'V' ∧ c ≠ 'ゔ' ∧ c ≠ 'ヴ' := by
  simp only [noV, Bool.not_eq_true', decide_eq_false_iff_not, not_or, ne_eq, char_eq_iff]
  rfl

theorem noV_keys {m : Mode} {p : Str} {out : Str} {n : KNode} (hw : (tree m).walk p = some n) (ho : n.output = some out)
    (hv : 'v' ∉ p) : ∀ d ∈ out, noV d = true ∧ 0x3000 ≤ d.toNat := by
  have h : allModes (fun _ x => match x.2.output with
      | some out => x.1.contains 'v' || out.all fun d => noV d && decide (0x3000 ≤ d.toNat)
      | none => true) = true := by
    decide +kernel
  have := allModes_walk h hw
  simpa [ho, List.contains_eq_mem, hv] using this

theorem noV_kana (m : Mode) (s : Str) (h : ∀ c ∈ s, noV c = true) : ∀ d ∈ kana m s, noV d = true := by
  induction s using list_strong with
  | _ s ih =>
    cases s with
    | nil => rw [kana_nil]; simp
    | cons c s =>
      obtain ⟨n, k, hst⟩ := exists_stops (tree m) (c :: s)
      cases ho : n.output with
      | none =>
        rw [kana_miss hst ho]
        intro d hd
        rcases List.mem_cons.1 hd with rfl | hd
        · exact h d List.mem_cons_self
        · exact ih s (by simp) (fun c hc => h c (List.mem_cons_of_mem _ hc)) d hd
      | some out =>
        obtain ⟨a, t, rfl, _, hw, hkana⟩ := hit_split hst ho
        have hv : 'v' ∉ toAsciiLowercase c :: low a := by
          intro hm
          have : 'v' ∈ low (c :: a) := hm
          obtain ⟨d, hd, e⟩ := List.mem_map.1 this
          have h1 := noV_iff.1 (h d (by
            rcases List.mem_cons.1 hd with rfl | hd
            · simp
            · simp [hd]))
          rcases low_v e with rfl | rfl
          · exact h1.1 rfl
          · exact h1.2.1 rfl
        have hout := noV_keys hw ho hv
        rw [hkana]
        intro d hd
        rcases List.mem_append.1 hd with hd | hd
        · unfold styled at hd
          split at hd
          · obtain ⟨e, he, rfl⟩ := List.mem_map.1 hd
            obtain ⟨h1, h2⟩ := hout e he
            simp only [noV, Bool.not_eq_true', decide_eq_false_iff_not, h2kP_toNat] at h1 ⊢
            split <;> omega
          · exact (hout d hd).1
        · exact ih t (by simp only [List.length_cons, List.length_append]; omega)
            (fun c hc => h c (by simp [hc])) d hd

theorem noV_table : (kanaTable.all fun p => p.2.all noV) = true := by decide +kernel

theorem noV_trip {std : Std} (hstd : std.Lawful) {m : Mode} (o : Options) (hu : o.upcase_katakana = false)
    {x y : Char} (hx : to_romaji_with_opt std "ゔ".toList o = .ok ['v', x]) (hxu : x ≠ 'u')
    (hy : to_romaji_with_opt std "っゔ".toList o = .ok ['v', 'v', y]) (hyu : y ≠ 'u') {s : Str}
    (h : ∀ c ∈ s, noV c = true) : 'ゔ' ∉ k2hP std true none (kana m s) ∧ ∀ c ∈ tripP std m s, noV c = true := by
  have hk := noV_kana m s h
  have hv : 'ゔ' ∉ k2hP std true none (kana m s) := by
    rw [vu_shift hstd]
    rintro (h | h)
    · exact absurd (hk _ h) (by decide)
    · exact absurd (hk _ h) (by decide)
  refine ⟨hv, ?_⟩
  obtain ⟨hxv, hyv, ps, e0, hps, hsuf⟩ := text_pieces hstd (kana m s) o hu hx hxu hy hyu
  have hz : ∀ c ∈ k2hP std true none (kana m s), noV c = true := by
    intro c hc
    have h1 := k2hP_weigh0 hstd true (w := fun c => if noV c = true then 0 else 1) (by
      intro c h1 h2
      have : noV (k2hChar c) = noV c := by
        simp only [noV, k2hChar_toNat h1 h2]
        congr 1
        rw [decide_eq_decide]
        repeat' split
        all_goals omega
      rw [this]) (by decide) (kana m s) prevOk_none
    rw [weigh_zero (s := kana m s) (fun c hc => by rw [if_pos (hk c hc)])] at h1
    obtain ⟨a, b, e⟩ := List.append_of_mem hc
    rw [e, weigh_append, weigh_cons] at h1
    cases hn : noV c with
    | true => rfl
    | false =>
      simp only [hn, Bool.false_eq_true, if_false] at h1
      omega
  have e : tripP std m s = (ps.map Prod.snd).flatten := by
    unfold tripP
    rw [e0]
    exact hsuf [] ps rfl
  rw [e]
  intro c hc
  obtain ⟨u, hu, hcu⟩ := List.mem_flatten.1 hc
  obtain ⟨p, hp, rfl⟩ := List.mem_map.1 hu
  have hmem : ∀ d ∈ p.1, noV d = true := fun d hd =>
    hz d (by rw [e0]; exact List.mem_flatten.2 ⟨p.1, List.mem_map_of_mem hp, hd⟩)
  rcases hps p hp with (h0 | ⟨d, rfl, _⟩) | h0 | ⟨d, rfl, _⟩
  · exact List.all_eq_true.1 (List.all_eq_true.1 noV_table p h0) c hcu
  · exact hmem c hcu
  · exfalso
    rcases h0 with rfl | rfl
    · exact absurd (hmem 'ゔ' (by simp)) (by decide)
    · exact absurd (hmem 'ゔ' (by simp)) (by decide)
  · exact hmem c hcu

theorem noV_trips {std : Std} (hstd : std.Lawful) {m : Mode} (o : Options) (hu : o.upcase_katakana = false)
    {x y : Char} (hx : to_romaji_with_opt std "ゔ".toList o = .ok ['v', x]) (hxu : x ≠ 'u')
    (hy : to_romaji_with_opt std "っゔ".toList o = .ok ['v', 'v', y]) (hyu : y ≠ 'u') (n : Nat) : ∀ {s : Str},
    (∀ c ∈ s, noV c = true) → ∀ c ∈ tripsP std m n s, noV c = true := by
  induction n with
  | zero => intro s h; exact h
  | succ n ih => intro s h; exact ih (noV_trip hstd o hu hx hxu hy hyu h).2

/-! ## the claim -/

/-- **C122** If ゔ or ヴ is among the kana of the text, the romaji have more than n characters after n further
trips: they grow without end. -/
theorem C122_grows {std : Std} (hstd : std.Lawful) (s k : Str) (o o' : Options) (hu : o.upcase_katakana = false)
    {x y : Char}
    (hx : to_romaji_with_opt std "ゔ".toList o = .ok ['v', x]) (hxu : x ≠ 'u')
    (hy : to_romaji_with_opt std "っゔ".toList o = .ok ['v', 'v', y]) (hyu : y ≠ 'u')
    (hk : to_kana_with_opt std s o' = .ok k) (hv : 'ゔ' ∈ k ∨ 'ヴ' ∈ k) (n : Nat) :
    ∃ r, trips std o o' (n + 1) s = .ok r ∧ n + 1 < r.length := by
  rw [to_kana_eq hstd, Except.ok.injEq] at hk
  subst hk
  refine ⟨_, trips_eq hstd hu o' _ _, ?_⟩
  have h1 := grown_vu hstd o hu hx hxu hy hyu ((vu_shift hstd _).2 hv)
  have h2 := (grow hstd (modeOf o') o hu hx hxu hy hyu n h1).length
  rw [Nat.zero_add] at h2
  exact h2

/-- **C122** Converting any text to kana and back to romaji again and again comes to rest in canonical romaji after at most
three trips for each character and one more, or at some point there is ゔ and from then on the text grows without end. -/
theorem C122_either {std : Std} (hstd : std.Lawful) (s : Str) (o o' : Options) (hu : o.upcase_katakana = false)
    (hime : o'.imemode = true → o'.use_obsolete_kana = true) {x y : Char}
    (hx : to_romaji_with_opt std "ゔ".toList o = .ok ['v', x]) (hxu : x ≠ 'u')
    (hy : to_romaji_with_opt std "っゔ".toList o = .ok ['v', 'v', y]) (hyu : y ≠ 'u') :
    (∃ t, Spec.CanonicalText (Spec.tableFor o'.use_obsolete_kana o'.imemode) o'.use_obsolete_kana t ∧
      ∀ n, 3 * s.length + 1 ≤ n → trips std o o' n s = .ok t) ∨
    ∃ i r k, i ≤ 3 * s.length ∧ trips std o o' i s = .ok r ∧ to_kana_with_opt std r o' = .ok k ∧ ('ゔ' ∈ k ∨ 'ヴ' ∈ k) ∧
      ∀ n, ∃ r, trips std o o' (i + n + 1) s = .ok r ∧ n + 1 < r.length := by
  have hm := modeOf_ne_ime hime
  rcases settle hstd hm o hu hx hxu hy hyu _ s (weight_le hm s) with ⟨t, ht, h⟩ | ⟨i, hi, h⟩
  · left
    rw [obsOf_modeOf, ← tableFor_eq] at ht
    exact ⟨t, ht, fun n hn => by rw [trips_eq hstd hu, h n hn]⟩
  · right
    refine ⟨i, _, _, hi, trips_eq hstd hu o' _ _, to_kana_eq hstd _ _, (vu_shift hstd _).1 h, ?_⟩
    intro n
    obtain ⟨r, h1, h2⟩ := C122_grows hstd (tripsP std (modeOf o') i s) _ o o' hu hx hxu hy hyu (to_kana_eq hstd _ _)
      ((vu_shift hstd _).1 h) n
    refine ⟨r, ?_, h2⟩
    rw [trips_eq hstd hu, Nat.add_assoc, tripsP_add, ← trips_eq hstd hu]
    exact h1

/-- **C122** Texts without v, ゔ and ヴ come to rest. -/
theorem C122_settles {std : Std} (hstd : std.Lawful) (s : Str) (o o' : Options) (hu : o.upcase_katakana = false)
    (hime : o'.imemode = true → o'.use_obsolete_kana = true) {x y : Char}
    (hx : to_romaji_with_opt std "ゔ".toList o = .ok ['v', x]) (hxu : x ≠ 'u')
    (hy : to_romaji_with_opt std "っゔ".toList o = .ok ['v', 'v', y]) (hyu : y ≠ 'u')
    (hs : ∀ c ∈ s, c ≠ 'v' ∧ c ≠ 'V' ∧ c ≠ 'ゔ' ∧ c ≠ 'ヴ') :
    ∃ t, Spec.CanonicalText (Spec.tableFor o'.use_obsolete_kana o'.imemode) o'.use_obsolete_kana t ∧
      ∀ n, 3 * s.length + 1 ≤ n → trips std o o' n s = .ok t := by
  rcases C122_either hstd s o o' hu hime hx hxu hy hyu with h | ⟨i, r, k, _, h1, h2, h3, _⟩
  · exact h
  · exfalso
    rw [trips_eq hstd hu, Except.ok.injEq] at h1
    rw [to_kana_eq hstd, Except.ok.injEq] at h2
    subst h1 h2
    have h4 := noV_trips hstd (m := modeOf o') o hu hx hxu hy hyu i fun c hc => noV_iff.2 (hs c hc)
    exact (noV_trip hstd (m := modeOf o') o hu hx hxu hy hyu h4).1 ((vu_shift hstd _).2 h3)

/-- **C122** Exactly the texts come to rest that never have ゔ or ヴ among their kana on the way. -/
theorem C122_exact {std : Std} (hstd : std.Lawful) (s : Str) (o o' : Options) (hu : o.upcase_katakana = false)
    (hime : o'.imemode = true → o'.use_obsolete_kana = true) {x y : Char}
    (hx : to_romaji_with_opt std "ゔ".toList o = .ok ['v', x]) (hxu : x ≠ 'u')
    (hy : to_romaji_with_opt std "っゔ".toList o = .ok ['v', 'v', y]) (hyu : y ≠ 'u') :
    (∃ N t, ∀ n, N ≤ n → trips std o o' n s = .ok t) ↔
    ∀ i r k, trips std o o' i s = .ok r → to_kana_with_opt std r o' = .ok k → 'ゔ' ∉ k ∧ 'ヴ' ∉ k := by
  constructor
  · rintro ⟨N, t, h⟩ i r k h1 h2
    rw [← not_or]
    intro h3
    obtain ⟨r', h4, h5⟩ := C122_grows hstd r k o o' hu hx hxu hy hyu h2 h3 (N + t.length)
    rw [trips_eq hstd hu, Except.ok.injEq] at h1
    rw [← h1, trips_eq hstd hu, ← tripsP_add, ← trips_eq hstd hu, h _ (by omega), Except.ok.injEq] at h4
    rw [h4] at h5
    omega
  · intro h
    rcases C122_either hstd s o o' hu hime hx hxu hy hyu with ⟨t, _, h1⟩ | ⟨i, r, k, _, h1, h2, h3, _⟩
    · exact ⟨_, t, h1⟩
    · have := h i r k h1 h2
      rcases h3 with h3 | h3
      · exact absurd h3 this.1
      · exact absurd h3 this.2

/-- **C122** the standard libraries of Rust 1.52 and later are such libraries -/
theorem C122_rust (s : Str) (o o' : Options) (hu : o.upcase_katakana = false)
    (hime : o'.imemode = true → o'.use_obsolete_kana = true) :
    ∀ std ∈ [rustStd, legacyStd],
    (∃ t, Spec.CanonicalText (Spec.tableFor o'.use_obsolete_kana o'.imemode) o'.use_obsolete_kana t ∧
      ∀ n, 3 * s.length + 1 ≤ n → trips std o o' n s = .ok t) ∨
    ∃ i r k, i ≤ 3 * s.length ∧ trips std o o' i s = .ok r ∧ to_kana_with_opt std r o' = .ok k ∧ ('ゔ' ∈ k ∨ 'ヴ' ∈ k) ∧
      ∀ n, ∃ r, trips std o o' (i + n + 1) s = .ok r ∧ n + 1 < r.length := by
  obtain ⟨h1, h2, h3, h4, -⟩ := C101_search o hu
  intro std h
  simp only [List.mem_cons, List.not_mem_nil, or_false] at h
  rcases h with rfl | rfl
  · exact C122_either rustStd_lawful s o o' hu hime h1 (by decide) h2 (by decide)
  · exact C122_either legacyStd_lawful s o o' hu hime h3 (by decide) h4 (by decide)

/-! ## how many trips -/

theorem ll_kana (m : Mode) (X : Str) : kana m ('l' :: 'l' :: X) = 'l' :: kana m ('l' :: X) := by
  have h : ∃ n, (tree m).walk ['l'] = some n ∧ n.output = none ∧ n.find_transition_node 'l' = none := by
    cases m <;> exact ⟨_, rfl, rfl, rfl⟩
  obtain ⟨n, h1, h2, h3⟩ := h
  refine kana_miss (n := n) (k := 1) ⟨by simp, h1, ?_⟩ h2
  intro c hc
  injection hc with hc
  subst hc
  exact h3

theorem la_kana (m : Mode) : kana m ['l', 'a'] = ['ぁ'] := by cases m <;> decide +kernel

theorem la_trip {std : Std} (hstd : std.Lawful) (m : Mode) (n : Nat) :
    tripP std m (List.replicate (n + 1) 'l' ++ ['a']) = List.replicate n 'l' ++ ['a'] := by
  have h1 : kana m (List.replicate (n + 1) 'l' ++ ['a']) = List.replicate n 'l' ++ ['ぁ'] := by
    induction n with
    | zero => exact la_kana m
    | succ n ih =>
      rw [List.replicate_succ, List.replicate_succ, List.cons_append, List.cons_append, ll_kana, ← List.cons_append,
        ← List.replicate_succ, ih, List.replicate_succ, List.cons_append]
  have h2 : romH std ['ぁ'] = ['a'] := by
    have h : ∃ n, TO_ROMAJI_NODE_TREE.mwalk ['ぁ'] = some n ∧ n.output = ['a'] := ⟨_, rfl, rfl⟩
    obtain ⟨n, h1, h2⟩ := h
    rw [← rwalk_eq_mwalk hstd _ (by decide)] at h1
    rw [← h2]
    exact romH_walk_end (by simp) h1
  have h3 : TO_ROMAJI_NODE_TREE.rfind std 'l' = none := root_none hstd (by decide +kernel)
  unfold tripP
  rw [h1, k2hP_id]
  · clear h1
    induction n with
    | zero => exact h2
    | succ n ih => rw [List.replicate_succ, List.cons_append, romH_miss h3, ih]; rfl
  · intro d hd
    rcases List.mem_append.1 hd with hd | hd
    · rw [List.eq_of_mem_replicate hd]; right; right; decide
    · rw [List.mem_singleton.1 hd]; right; right; decide

/-- **C122** There is no bound on the number of trips that would do for all texts: n times l and an a need exactly n trips
until they come to rest as a. -/
theorem C122_unbounded {std : Std} (hstd : std.Lawful) (o o' : Options) (hu : o.upcase_katakana = false) (n : Nat) :
    ∀ i, i ≤ n → trips std o o' i (List.replicate n 'l' ++ ['a']) = .ok (List.replicate (n - i) 'l' ++ ['a']) := by
  intro i
  rw [trips_eq hstd hu]
  induction i generalizing n with
  | zero => intro _; rfl
  | succ i ih =>
    intro hi
    obtain ⟨n, rfl⟩ : ∃ k, n = k + 1 := ⟨n - 1, by omega⟩
    rw [tripsP, la_trip hstd, Nat.add_sub_add_right]
    exact ih n (by omega)

/-- several trips until nothing changes, and a text that grows -/
example : trips rustStd {} {} 1 "lyyyynn".toList = .ok "lyyyynn".toList ∧
    trips rustStd {} {} 1 "xtsuka xn'ya".toList ≠ trips rustStd {} {} 0 "xtsuka xn'ya".toList ∧
    (∀ i ∈ [0, 1, 2], trips rustStd {} {} i "lyyyyann".toList ≠ trips rustStd {} {} (i + 1) "lyyyyann".toList) ∧
    trips rustStd {} {} 1 "vu".toList = .ok "vo".toList ∧ trips rustStd {} {} 3 "vu".toList = .ok "vooo".toList := by
  decide +kernel

end WanaKana
