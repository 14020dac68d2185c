import Verif.Props.RoundTrip
import Verif.Props.RomajiCut
/-! # C76: romaji produced by `to_romaji` is stable under a trip through kana -/

namespace WanaKana
open RNode
open Spec (toHira kanaTable)

/-- conversion of hiragana, case ignored -/
def romF (std : Std) (h : Str) : Str := rom std false (h.map fun c => (c, false))

/-- the romaji of the table; ゐ and ゑ only if obsolete kana are on, and not after っ -/
def outs (m : Mode) : List Str :=
  (kanaTable.filter fun x => !(x.1.contains 'ゐ' || x.1.contains 'ゑ') || (obsOf m && !x.1.contains 'っ')).map Prod.snd

/-- characters left alone by the kana shift, not ゔ -/
def plainChar (d : Char) : Bool := d != 'ゔ' && (keeps d || isDash d || !is_char_katakana d)

/-- a block of romaji that is converted on its own, in both directions -/
structure Block (std : Std) (m : Mode) (u : Str) : Prop where
  rom : romF std (kana m u) = u
  plain : ∀ d ∈ kana m u, plainChar d = true
  last : ∃ c, u.getLast? = some c ∧ toAsciiLowercase c ∉ "bcdfghjklmnpqrstvwxyz".toList
  lastKana : ∃ x, (kana m u).getLast? = some x ∧ x ≠ 'っ' ∧ x ≠ 'ん'
  head : ∃ x c, (kana m u).head? = some x ∧ u.head? = some c ∧ x ∉ Spec.smallKana ∧
    (x ∈ Spec.afterN → c ∈ ['a', 'i', 'u', 'e', 'o', 'y'])

def blockCheck (m : Mode) (u : Str) : Bool :=
  decide (romF modernStd (kana m u) = u) && (kana m u).all plainChar &&
  (match u.getLast? with
    | some c => !("bcdfghjklmnpqrstvwxyz".toList.contains (toAsciiLowercase c))
    | none => false) &&
  (match (kana m u).getLast? with
    | some x => x != 'っ' && x != 'ん'
    | none => false) &&
  (match (kana m u).head?, u.head? with
    | some x, some c => !Spec.smallKana.contains x &&
      (!Spec.afterN.contains x || ['a', 'i', 'u', 'e', 'o', 'y'].contains c)
    | _, _ => false)

theorem romF_std {std : Std} (hstd : std.Lawful) {h : Str} (hp : ∀ d ∈ h, plainChar d = true) :
    romF std h = romF modernStd h := by
  apply rom_std hstd modernStd_lawful
  intro x hx
  obtain ⟨d, hd, rfl⟩ := List.mem_map.1 hx
  have := hp d hd
  simp only [plainChar, Bool.and_eq_true, bne_iff_ne] at this
  exact this.1

theorem block_of_check {std : Std} (hstd : std.Lawful) {m : Mode} {u : Str} (h : blockCheck m u = true) :
    Block std m u := by
  simp only [blockCheck, Bool.and_eq_true, decide_eq_true_iff, List.all_eq_true] at h
  obtain ⟨⟨⟨⟨h1, h2⟩, h3⟩, h4⟩, h5⟩ := h
  refine ⟨by rw [romF_std hstd h2, h1], h2, ?_, ?_, ?_⟩
  · cases hl : u.getLast? with
    | none => rw [hl] at h3; cases h3
    | some c =>
      rw [hl] at h3
      exact ⟨c, rfl, by simpa only [Bool.not_eq_true', List.contains_eq_mem, decide_eq_false_iff_not] using h3⟩
  · cases hl : (kana m u).getLast? with
    | none => rw [hl] at h4; cases h4
    | some x =>
      rw [hl] at h4
      simp only [Bool.and_eq_true, bne_iff_ne] at h4
      exact ⟨x, rfl, h4⟩
  · cases hl : (kana m u).head? with
    | none => rw [hl] at h5; cases h5
    | some x =>
      cases hc : u.head? with
      | none => rw [hl, hc] at h5; cases h5
      | some c =>
        rw [hl, hc] at h5
        simp only [Bool.and_eq_true, Bool.not_eq_true', Bool.or_eq_true, List.contains_eq_mem, decide_eq_true_iff,
          decide_eq_false_iff_not] at h5
        refine ⟨x, c, rfl, rfl, h5.1, fun hx => ?_⟩
        rcases h5.2 with h | h
        · exact absurd hx h
        · exact h

/-- every romaji of the table except `n` is a block, also with `n` in front if it starts with a vowel or y -/
theorem outs_check (m : Mode) (hm : m ≠ .ime) : ((outs m).all fun u => u == [] || u == ['n'] ||
    blockCheck m u && (match u with
      | c :: _ => decide (toAsciiLowercase c = c) && c != '\'' &&
        (!['a', 'i', 'u', 'e', 'o', 'y'].contains c || blockCheck m ('n' :: u))
      | [] => false)) = true := by
  cases m with
  | normal => decide +kernel
  | obsolete => decide +kernel
  | ime => exact absurd rfl hm

/-- a character copied in both directions -/
def Copied (c : Char) : Prop :=
  headChar (toAsciiLowercase c) = false ∧ c ≠ '\'' ∧ romajiKey c = false ∧ plainChar c = true

/-- pieces of the romaji of a text -/
def RUnit (m : Mode) (u : Str) : Prop := u ∈ outs m ∨ ∃ c, Copied c ∧ u = [c]

theorem block_copied {std : Std} (hstd : std.Lawful) {m : Mode} {c : Char} (h : Copied c) : Block std m [c] := by
  obtain ⟨h1, h2, h3, h4⟩ := h
  have hk : kana m [c] = [c] := by
    have := kana_of_not_head (m := m) (s := [c]) (by simpa using h1) []
    simpa [kana_nil] using this
  refine ⟨?_, ?_, ?_, ?_, ?_⟩
  · rw [hk]
    unfold romF
    rw [List.map_cons, rom_miss (root_none hstd h3), List.map_nil, rom_nil]
  · rw [hk]; simpa using h4
  · refine ⟨c, rfl, fun hm => ?_⟩
    have : ∀ x ∈ "bcdfghjklmnpqrstvwxyz".toList, headChar x = true := by decide
    rw [this _ hm] at h1; cases h1
  · rw [hk]
    refine ⟨c, rfl, ?_, ?_⟩ <;> rintro rfl <;> revert h3 <;> decide
  · rw [hk]
    refine ⟨c, c, rfl, rfl, fun hm => ?_, fun hm => ?_⟩
    · have : ∀ x ∈ Spec.smallKana, romajiKey x = true := by decide
      rw [this _ hm] at h3; cases h3
    · have : ∀ x ∈ Spec.afterN, romajiKey x = true := by decide
      rw [this _ hm] at h3; cases h3

/-- the invariant -/
structure Normal (std : Std) (m : Mode) (r : Str) : Prop where
  rom : romF std (kana m r) = r
  plain : ∀ d ∈ kana m r, plainChar d = true
  head : ∀ x, (kana m r).head? = some x → x ∉ Spec.smallKana ∧
    (x ∈ Spec.afterN → ∃ c, r.head? = some c ∧ c ∈ ['a', 'i', 'u', 'e', 'o', 'y'])

theorem normal_nil (std : Std) (m : Mode) : Normal std m [] := by
  refine ⟨?_, ?_, ?_⟩
  · rw [kana_nil]; exact rom_nil _ _
  · rw [kana_nil]; simp
  · rw [kana_nil]; simp

/-- kana conversions cut between two lists -/
theorem romF_append {std : Std} (hstd : std.Lawful) (a b : Str)
    (h : ∀ x y, a.getLast? = some x → b.head? = some y → pairOk x y = false) :
    romF std (a ++ b) = romF std a ++ romF std b := by
  unfold romF
  rw [List.map_append]
  apply rom_append_pair hstd
  intro x y hx hy
  rw [List.getLast?_map] at hx
  rw [List.head?_map] at hy
  obtain ⟨x', hx', rfl⟩ := Option.map_eq_some_iff.1 hx
  obtain ⟨y', hy', rfl⟩ := Option.map_eq_some_iff.1 hy
  exact h _ _ hx' hy'

theorem normal_append {std : Std} (hstd : std.Lawful) {m : Mode} {u r : Str} (hu : Block std m u)
    (hr : Normal std m r) : Normal std m (u ++ r) := by
  obtain ⟨c, hc, hc2⟩ := hu.last
  have hk : kana m (u ++ r) = kana m u ++ kana m r := kana_append u r (cut_of_last hc hc2)
  refine ⟨?_, ?_, ?_⟩
  · rw [hk, romF_append hstd, hu.rom, hr.rom]
    intro x y hx hy
    obtain ⟨x', hx', n1, n2⟩ := hu.lastKana
    rw [hx'] at hx; cases hx
    have := (hr.head y hy).1
    simp [pairOk, n1, n2, this]
  · rw [hk]
    intro d hd
    rcases List.mem_append.1 hd with h | h
    · exact hu.plain d h
    · exact hr.plain d h
  · obtain ⟨x, c', hx, hc', n1, n2⟩ := hu.head
    intro y hy
    rw [hk, List.head?_append, hx] at hy
    cases hy
    refine ⟨n1, fun h => ⟨c', ?_, n2 h⟩⟩
    rw [List.head?_append, hc']; rfl

theorem normal_n {std : Std} (hstd : std.Lawful) {m : Mode} (hm : m ≠ .ime) {r : Str} (hr : Normal std m r)
    (h : ∀ c, r.head? = some c → toAsciiLowercase c ∉ "aiueoy'".toList ∧ c ∉ ['a', 'i', 'u', 'e', 'o', 'y']) :
    Normal std m ('n' :: r) := by
  have hk : kana m ('n' :: r) = 'ん' :: kana m r := by
    have := kana_n (m := m) hm (c := 'n') (by decide) (t := r) fun d hd hm => (h d hd).1 (by simpa using hm)
    exact this
  have hrn : romF std ['ん'] = ['n'] := by
    rw [romF_std hstd (by decide)]; decide +kernel
  refine ⟨?_, ?_, ?_⟩
  · rw [hk]
    have := romF_append hstd ['ん'] (kana m r) ?_
    · rw [hrn, hr.rom] at this; exact this
    · intro x y hx hy
      cases hx
      obtain ⟨h1, h2⟩ := hr.head y hy
      have h3 : y ∉ Spec.afterN := fun hy' => by
        obtain ⟨c, hc, hc2⟩ := h2 hy'
        exact (h c hc).2 hc2
      simp [pairOk, h1, h3]
  · rw [hk]
    intro d hd
    rcases List.mem_cons.1 hd with rfl | hd
    · decide
    · exact hr.plain d hd
  · rw [hk]
    intro x hx
    cases hx
    exact ⟨by decide, fun h => absurd h (by decide)⟩

theorem flatten_head {us : List Str} {c : Char} (h : us.flatten.head? = some c) :
    ∃ (u : Str) (vs : List Str), u ∈ us ∧ (∀ v ∈ vs, v ∈ us) ∧ vs.length < us.length ∧ us.flatten = u ++ vs.flatten ∧ u.head? = some c := by
  induction us with
  | nil => cases h
  | cons u us ih =>
    cases u with
    | nil =>
      obtain ⟨u, vs, h1, h2, h3, h4, h5⟩ := ih h
      exact ⟨u, vs, List.mem_cons_of_mem _ h1, fun v hv => List.mem_cons_of_mem _ (h2 v hv),
        by simp; omega, h4, h5⟩
    | cons d u =>
      exact ⟨d :: u, us, List.mem_cons_self, fun v hv => List.mem_cons_of_mem _ hv, by simp, rfl, h⟩

theorem normal_units {std : Std} (hstd : std.Lawful) {m : Mode} (hm : m ≠ .ime) : ∀ (k : Nat) (us : List Str),
    us.length ≤ k → (∀ u ∈ us, RUnit m u) → Normal std m us.flatten := by
  intro k
  induction k with
  | zero =>
    intro us hl _
    cases us with
    | nil => exact normal_nil _ _
    | cons u us => simp at hl
  | succ k ih =>
    intro us hl hus
    cases us with
    | nil => exact normal_nil _ _
    | cons u us =>
      have hr := ih us (by simpa using hl) fun v hv => hus v (List.mem_cons_of_mem _ hv)
      rw [List.flatten_cons]
      rcases hus u List.mem_cons_self with hu | ⟨c, hc, rfl⟩
      · have hch := List.all_eq_true.1 (outs_check m hm) u hu
        simp only [Bool.or_eq_true, beq_iff_eq] at hch
        rcases hch with (rfl | rfl) | hb
        · exact hr
        · by_cases hv : ∃ c, us.flatten.head? = some c ∧ c ∈ ['a', 'i', 'u', 'e', 'o', 'y']
          · obtain ⟨c, hc, hcv⟩ := hv
            obtain ⟨v, vs, h1, h2, h3, h4, h5⟩ := flatten_head hc
            rw [h4]
            have hvs := ih vs (by simp at hl; omega) fun x hx => hus x (List.mem_cons_of_mem _ (h2 x hx))
            have hvb : Block std m ('n' :: v) := by
              rcases hus v (List.mem_cons_of_mem _ h1) with hv | ⟨d, hd, rfl⟩
              · have hch := List.all_eq_true.1 (outs_check m hm) v hv
                simp only [Bool.or_eq_true, beq_iff_eq] at hch
                rcases hch with (rfl | rfl) | hb
                · cases h5
                · cases h5; exact absurd hcv (by decide)
                · cases v with
                  | nil => cases h5
                  | cons d v =>
                    cases h5
                    simp only [Bool.and_eq_true, Bool.or_eq_true, Bool.not_eq_true', List.contains_eq_mem,
                      decide_eq_false_iff_not] at hb
                    rcases hb.2.2 with h | h
                    · exact absurd hcv h
                    · exact block_of_check hstd h
              · cases h5
                have : ∀ x ∈ ['a', 'i', 'u', 'e', 'o', 'y'], headChar (toAsciiLowercase x) = true := by decide
                have hd1 := hd.1
                rw [this _ hcv] at hd1
                cases hd1
            have := normal_append hstd hvb hvs
            rw [List.cons_append] at this
            exact this
          · apply normal_n hstd hm hr
            intro c hc
            have hcv : c ∉ ['a', 'i', 'u', 'e', 'o', 'y'] := fun h => hv ⟨c, hc, h⟩
            refine ⟨?_, hcv⟩
            obtain ⟨v, vs, h1, h2, h3, h4, h5⟩ := flatten_head hc
            have hlow : toAsciiLowercase c = c ∧ c ≠ '\'' := by
              rcases hus v (List.mem_cons_of_mem _ h1) with hv | ⟨d, hd, rfl⟩
              · have hch := List.all_eq_true.1 (outs_check m hm) v hv
                simp only [Bool.or_eq_true, beq_iff_eq] at hch
                rcases hch with (rfl | rfl) | hb
                · cases h5
                · cases h5; decide
                · cases v with
                  | nil => cases h5
                  | cons d v =>
                    cases h5
                    simp only [Bool.and_eq_true, decide_eq_true_iff, bne_iff_ne] at hb
                    exact ⟨hb.2.1.1, hb.2.1.2⟩
              · cases h5
                refine ⟨?_, hd.2.1⟩
                apply char_ext
                have h0 : ¬ headChar (toAsciiLowercase c) = true := by rw [hd.1]; simp
                rw [headChar_iff, toAsciiLowercase_toNat] at h0
                rw [toAsciiLowercase_toNat]
                split at h0 <;> split <;> omega
            rw [hlow.1]
            intro h
            have : ∀ x ∈ "aiueoy'".toList, x ∈ ['a', 'i', 'u', 'e', 'o', 'y'] ∨ x = '\'' := by decide
            rcases this c h with h | h
            · exact hcv h
            · exact hlow.2 h
        · simp only [Bool.and_eq_true] at hb
          exact normal_append hstd (block_of_check hstd hb.1) hr
      · exact normal_append hstd (block_copied hstd hc) hr

/-! ## The romaji of a text consists of such units -/

theorem hiraFromV_mem (x : Char) (dest : Bool) (s : Str) : ∀ pre, ∀ d ∈ Spec.hiraFromV x dest pre s,
    (∃ c ∈ s, d = toHira c) ∨ d ∈ ['あ', 'い', 'う', 'え', 'お', 'ー'] := by
  induction s with
  | nil => intro pre d hd; cases hd
  | cons c s ih =>
    intro pre d hd
    rw [Spec.hiraFromV] at hd
    rcases List.mem_append.1 hd with hd | hd
    · split at hd
      · right
        unfold Spec.markAfterV at hd
        split at hd
        · split at hd
          · unfold Spec.longVowelV Spec.longVowel at hd
            repeat' split at hd
            all_goals simp at hd
            all_goals simp [hd]
          · simp at hd; simp [hd]
        · simp at hd; simp [hd]
      · left
        exact ⟨c, List.mem_cons_self, by simpa using hd⟩
    · rcases ih _ d hd with ⟨e, he, h⟩ | h
      · exact Or.inl ⟨e, List.mem_cons_of_mem _ he, h⟩
      · exact Or.inr h

theorem rom_units {std : Std} (hstd : std.Lawful) (m : Mode) : ∀ z : List (Char × Bool),
    (∀ x ∈ z, plainChar x.1 = true ∧ ¬ Spec.AsciiLetter x.1 ∧ x.1 ≠ '\'' ∧
      (x.1 ∉ ['ゐ', 'ゑ'] ∨ obsOf m = true ∧ ∀ y ∈ z, y.1 ≠ 'っ')) →
    ∃ us : List Str, rom std false z = us.flatten ∧ ∀ u ∈ us, RUnit m u := by
  intro z
  induction z using rom_ind (std := std) with
  | nil => intro _; exact ⟨[], by rw [rom_nil]; rfl, by simp⟩
  | miss c b z h ih =>
    intro hz
    obtain ⟨us, h1, h2⟩ := ih fun x hx => by
      obtain ⟨a1, a2, a3, a4⟩ := hz x (List.mem_cons_of_mem _ hx)
      exact ⟨a1, a2, a3, a4.imp id fun h => ⟨h.1, fun y hy => h.2 y (List.mem_cons_of_mem _ hy)⟩⟩
    refine ⟨[c] :: us, by rw [rom_miss h, h1]; rfl, ?_⟩
    intro u hu
    rcases List.mem_cons.1 hu with rfl | hu
    · obtain ⟨p1, p2, p3, _⟩ := hz (c, b) List.mem_cons_self
      simp only at p1 p2 p3
      have hkey : romajiKey c = false := by
        cases hk : romajiKey c with
        | false => rfl
        | true =>
          obtain ⟨n, hn⟩ := root_some hstd hk
          rw [hn] at h; cases h
      cases hh : headChar (toAsciiLowercase c) with
      | false => exact Or.inr ⟨c, ⟨hh, p3, hkey, p1⟩, rfl⟩
      | true =>
        left
        have hp : c ∈ ['!', '(', ')', ',', '-', '.', '/', ':', '?', '[', ']', '{', '}', '~', '‘', '’', '“', '”'] := by
          rw [headChar_iff, toAsciiLowercase_toNat] at hh
          unfold Spec.AsciiLetter Spec.In at p2
          simp only [List.mem_cons, List.not_mem_nil, or_false, char_eq_iff, Char.reduceToNat] at hh ⊢
          split at hh <;> omega
        have : ∀ c ∈ ['!', '(', ')', ',', '-', '.', '/', ':', '?', '[', ']', '{', '}', '~', '‘', '’', '“', '”'],
            [c] ∈ outs m := by
          cases m <;> decide +kernel
        exact this c hp
    · exact h2 u hu
  | hit z n k hk h ih =>
    intro hz
    obtain ⟨us, h1, h2⟩ := ih fun x hx => by
      obtain ⟨a1, a2, a3, a4⟩ := hz x (List.mem_of_mem_drop hx)
      exact ⟨a1, a2, a3, a4.imp id fun h => ⟨h.1, fun y hy => h.2 y (List.mem_of_mem_drop hy)⟩⟩
    refine ⟨n.output :: us, ?_, ?_⟩
    · rw [rom_hit h hk, h1]; simp
    · intro u hu
      rcases List.mem_cons.1 hu with rfl | hu
      · left
        have hw := h.walk
        have hq : ∀ c ∈ (z.map Prod.fst).take k, plainChar c = true ∧
            (c ∉ ['ゐ', 'ゑ'] ∨ obsOf m = true ∧ 'っ' ∉ (z.map Prod.fst).take k) := by
          intro c hc
          obtain ⟨x, hx, rfl⟩ := List.mem_map.1 (List.mem_of_mem_take hc)
          refine ⟨(hz x hx).1, (hz x hx).2.2.2.imp id fun h => ⟨h.1, fun hm => ?_⟩⟩
          obtain ⟨y, hy, e⟩ := List.mem_map.1 (List.mem_of_mem_take hm)
          exact h.2 y hy e
        have hne : (z.map Prod.fst).take k ≠ [] := by
          intro e
          have h1 := congrArg List.length e
          have h2 := h.le
          rw [List.length_take, List.length_nil] at h1
          omega
        generalize (z.map Prod.fst).take k = q at hw hq hne
        cases q with
        | nil => exact absurd rfl hne
        | cons c q =>
          have hl := table_of_mwalk (n := n) (c := c) (q := q)
            (fun hm => absurd (hq _ hm).1 (by decide)) (fun hm => absurd (hq _ hm).1 (by decide)) hstd hw
          apply List.mem_map.2
          refine ⟨(c :: q, n.output), List.mem_filter.2 ⟨mem_of_lookup hl, ?_⟩, rfl⟩
          simp only [Bool.or_eq_true, Bool.not_eq_true', Bool.or_eq_false_iff, List.contains_eq_mem,
            decide_eq_false_iff_not, Bool.and_eq_true]
          by_cases hwi : 'ゐ' ∈ c :: q
          · exact Or.inr ((hq _ hwi).2.resolve_left (by decide))
          · by_cases hwe : 'ゑ' ∈ c :: q
            · exact Or.inr ((hq _ hwe).2.resolve_left (by decide))
            · exact Or.inl ⟨hwi, hwe⟩
      · exact h2 u hu

/-- the characters `to_romaji` converts, for a text as in C76 -/
theorem flagged_ok {std : Std} (hstd : std.Lawful) (s : Str) (o' : Options)
    (hs : ∀ c ∈ s, ¬ Spec.AsciiLetter c ∧ c ≠ '\'' ∧ toHira c ≠ 'ゔ' ∧
      (toHira c ∉ ['ゐ', 'ゑ'] ∨ o'.use_obsolete_kana = true ∧ ∀ d ∈ s, toHira d ≠ 'っ')) :
    ∀ x ∈ flagged std s, plainChar x.1 = true ∧ ¬ Spec.AsciiLetter x.1 ∧ x.1 ≠ '\'' ∧
      (x.1 ∉ ['ゐ', 'ゑ'] ∨ obsOf (modeOf o') = true ∧ ∀ y ∈ flagged std s, y.1 ≠ 'っ') := by
  intro x hx
  have hm2 := k2hP_hiraFromV hstd true s []
  rw [show k2hPrev none [] = none from rfl] at hm2
  have hx1 : x.1 ∈ k2hP std true none s := by
    rw [← flagged_fst hstd]; exact List.mem_map_of_mem hx
  have hout := k2hP_out hstd true s prevOk_none _ hx1
  have hpl : x.1 ≠ 'ゔ' → plainChar x.1 = true := by
    intro h
    simp only [plainChar, Bool.and_eq_true, bne_iff_ne, Bool.or_eq_true, Bool.not_eq_true']
    exact ⟨h, or_assoc.2 hout⟩
  rw [hm2] at hx1
  rcases hiraFromV_mem _ _ _ _ _ hx1 with ⟨c, hc, e⟩ | h
  · obtain ⟨h1, h2, h3, h4⟩ := hs c hc
    rw [e]
    refine ⟨by rw [← e]; exact hpl (by rw [e]; exact h3), ?_, ?_, ?_⟩
    · unfold Spec.AsciiLetter Spec.In at *
      rw [toHira_toNat]
      repeat' split
      all_goals omega
    · intro h
      apply h2
      rw [char_eq_iff, toHira_toNat] at h
      apply char_ext
      simp only [Char.reduceToNat] at *
      repeat' split at h
      all_goals omega
    · rw [obsOf_modeOf]
      refine h4.imp id fun h => ⟨h.1, fun y hy => ?_⟩
      have hy1 : y.1 ∈ k2hP std true none s := by
        rw [← flagged_fst hstd]; exact List.mem_map_of_mem hy
      rw [hm2] at hy1
      rcases hiraFromV_mem _ _ _ _ _ hy1 with ⟨d, hd, e⟩ | h'
      · rw [e]; exact h.2 d hd
      · intro e
        rw [e] at h'
        exact absurd h' (by decide)
  · have : ∀ y ∈ ['あ', 'い', 'う', 'え', 'お', 'ー'], y ≠ 'ゔ' ∧ ¬ Spec.AsciiLetter y ∧ y ≠ '\'' ∧ y ∉ ['ゐ', 'ゑ'] := by
      decide
    obtain ⟨h1, h2, h3, h4⟩ := this _ h
    exact ⟨hpl h1, h2, h3, Or.inl h4⟩

/-- **C76** Romaji made by `to_romaji` is stable: converting it to kana and back to romaji gives the same romaji.
The text has no Latin letter and no apostrophe (these are copied by `to_romaji` but read by `to_kana`), no ゔ, and no
ゐ ゑ unless obsolete kana are used and there is no っ. -/
theorem C76_normal {std : Std} (hstd : std.Lawful) (s r : Str) (o o' : Options) (hu : o.upcase_katakana = false)
    (hime : o'.imemode = true → o'.use_obsolete_kana = true)
    (hs : ∀ c ∈ s, ¬ Spec.AsciiLetter c ∧ c ≠ '\'' ∧ toHira c ≠ 'ゔ' ∧
      (toHira c ∉ ['ゐ', 'ゑ'] ∨ o'.use_obsolete_kana = true ∧ ∀ d ∈ s, toHira d ≠ 'っ'))
    (hr : to_romaji_with_opt std s o = .ok r) :
    ∃ k, to_kana_with_opt std r o' = .ok k ∧ to_romaji_with_opt std k o = .ok r := by
  have hm := modeOf_ne_ime hime
  rw [to_romaji_eq hstd, hu] at hr
  cases hr
  refine ⟨_, to_kana_eq hstd _ _, ?_⟩
  rw [to_romaji_eq hstd, hu]
  congr 1
  have hz := flagged_ok hstd s o' hs
  obtain ⟨us, e, hus⟩ := rom_units hstd (modeOf o') (flagged std s) hz
  have hn := normal_units hstd hm us.length us (Nat.le_refl _) hus
  rw [e]
  rw [← hn.rom]
  conv => lhs; rw [hn.rom]
  apply rom_flag
  rw [flagged_fst hstd, k2hP_id]
  · rw [List.map_map]; exact (List.map_id _).symm
  · intro d hd
    have := hn.plain d hd
    simp only [plainChar, Bool.and_eq_true, Bool.or_eq_true, Bool.not_eq_true'] at this
    exact or_assoc.1 this.2

/-- the hypotheses hold for irregular text: っち becomes `tchi`, then tち, then `tchi` -/
example : (∀ c ∈ "まっちゃ、ぢゃない んっぁー漢".toList, ¬ Spec.AsciiLetter c ∧ c ≠ '\'' ∧ toHira c ≠ 'ゔ' ∧
      toHira c ∉ ['ゐ', 'ゑ']) ∧
    to_romaji modernStd "まっちゃ、ぢゃない んっぁー漢".toList = .ok "matcha,janai na-漢".toList ∧
    to_kana modernStd "matcha,janai na-漢".toList = .ok "まtちゃ、じゃない なー漢".toList := by decide +kernel

/-- **C76** the conditions are needed -/
theorem C76_needed : ∀ x ∈ ["ca", "ん'", "ゐ", "ゔ"], ∀ r k, to_romaji modernStd x.toList = .ok r →
    to_kana modernStd r = .ok k → to_romaji modernStd k ≠ .ok r := by
  have h : (["ca", "ん'", "ゐ", "ゔ"].all fun x => match to_romaji modernStd x.toList with
    | .ok r => (match to_kana modernStd r with
      | .ok k => !decide (to_romaji modernStd k = .ok r)
      | _ => false)
    | _ => false) = true := by decide +kernel
  intro x hx r k h1 h2 h3
  have := List.all_eq_true.1 h x hx
  simp [h1, h2, h3] at this

end WanaKana
