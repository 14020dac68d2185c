import Verif.Props.ToRomaji2
import Verif.Spec.RomajiCut
import Verif.Spec.ConversionTable
/-! # C74, C75: cutting a text before `to_romaji`; every row of the kana → romaji table in context -/

namespace WanaKana
open RNode

/-! ## The tree continues only inside syllables -/

/-- neighbouring keys on a path of the tree -/
def pairOk (x y : Char) : Bool :=
  romajiKey y && (x == 'っ' || (x == 'ん' && Spec.afterN.contains y) || Spec.smallKana.contains y)

theorem rwalk_pair {std : Std} (hstd : std.Lawful) {p : Str} {x y : Char} {n : RNode}
    (h : TO_ROMAJI_NODE_TREE.rwalk std (p ++ [x, y]) = some n) : pairOk x y = true := by
  have hc : (TO_ROMAJI_NODE_TREE.paths.all fun q => match q.1.reverse with
      | y :: x :: _ => pairOk x y
      | _ => true) = true := by decide +kernel
  have := rwalk_check hstd hc h
  simpa using this

/-- conversion of a concatenation, cut where the tree does not continue -/
theorem rom_append_pair {std : Std} (hstd : std.Lawful) (up : Bool) (w : List (Char × Bool)) :
    ∀ z : List (Char × Bool), (∀ x y, z.getLast? = some x → w.head? = some y → pairOk x.1 y.1 = false) →
    rom std up (z ++ w) = rom std up z ++ rom std up w := by
  intro z
  induction z using rom_ind (std := std) with
  | nil => intro _; rw [rom_nil]; rfl
  | miss c b z h ih =>
    intro hw
    rw [List.cons_append, rom_miss h, rom_miss h, ih]
    · rfl
    · intro x y hx hy
      apply hw x y _ hy
      cases z with
      | nil => cases hx
      | cons d z => rw [List.getLast?_cons_cons]; exact hx
  | hit z n k hk h ih =>
    intro hw
    have hle := h.le
    rw [List.length_map] at hle
    have h' : RStops std TO_ROMAJI_NODE_TREE ((z ++ w).map Prod.fst) n k := by
      rw [List.map_append]
      apply h.append
      intro hke c hc
      rw [List.head?_map] at hc
      obtain ⟨y, hy, rfl⟩ := Option.map_eq_some_iff.1 hc
      cases hf : n.rfind std y.1 with
      | none => rfl
      | some m =>
        exfalso
        rw [List.length_map] at hke
        have hwk := h.walk
        rw [hke, ← List.length_map (f := Prod.fst) (as := z), List.take_length] at hwk
        have hz : z ≠ [] := by intro e; rw [e] at hke; exact hk hke
        have hlast := hw (z.getLast hz) y (List.getLast?_eq_some_getLast hz) hy
        have hsplit : z.map Prod.fst = z.dropLast.map Prod.fst ++ [(z.getLast hz).1] := by
          conv => lhs; rw [← List.dropLast_concat_getLast hz]
          simp
        have hp : TO_ROMAJI_NODE_TREE.rwalk std (z.dropLast.map Prod.fst ++ [(z.getLast hz).1, y.1]) = some m := by
          have := rwalk_append (std := std) (z.map Prod.fst) [y.1] TO_ROMAJI_NODE_TREE
          rw [hwk] at this
          simp only [rwalk_singleton] at this
          rw [hsplit] at this
          simpa [hf] using this
        rw [rwalk_pair hstd hp] at hlast
        cases hlast
    rw [rom_hit h' hk, rom_hit h hk, List.take_append_of_le_length hle, List.drop_append_of_le_length hle, ih,
      List.append_assoc]
    intro x y hx hy
    apply hw x y _ hy
    rw [List.getLast?_drop] at hx
    split at hx
    · cases hx
    · exact hx

/-! ## The hiragana form of a concatenation -/

theorem k2hP_of_takeWhile (std : Std) (dest : Bool) (b : Str) (p : Option Char)
    (h : 'ー' ∉ b.takeWhile fun c => decide (c ∈ Spec.chain)) : k2hP std dest p b = k2hP std dest none b := by
  induction b generalizing p with
  | nil => cases p <;> rfl
  | cons c b ih =>
    rw [k2hP_cons, k2hP_cons]
    by_cases hk : keeps c = true
    · have : c ∈ Spec.chain := chain_iff.2 (by simp [hk])
      rw [List.takeWhile_cons_of_pos (by simpa using this)] at h
      rw [if_pos hk, if_pos hk, ih p (fun hm => h (List.mem_cons_of_mem _ hm))]
    · have hd : ¬ isDash c = true := by
        intro hd
        have : c ∈ Spec.chain := chain_iff.2 (by simp [hd])
        rw [List.takeWhile_cons_of_pos (by simpa using this)] at h
        apply h
        rw [show c = 'ー' from char_ext (isDash_iff.1 hd)]
        exact List.mem_cons_self
      simp only [hk, hd, if_false, Bool.false_eq_true]

theorem k2hP_cut (std : Std) (a b : Str) (h : ∀ g, Spec.governing a = some g → Spec.KatakanaLetter g →
    'ー' ∉ b.takeWhile fun c => decide (c ∈ Spec.chain)) :
    k2hP std true none (a ++ b) = k2hP std true none a ++ k2hP std true none b := by
  rw [k2hP_append]
  congr 1
  cases hp : k2hPrev none a with
  | none => rfl
  | some p =>
    rw [k2hPrev_governing] at hp
    cases hg : Spec.governing a with
    | none => rw [hg] at hp; cases hp
    | some g =>
      rw [hg, Option.bind_some] at hp
      split at hp
      · rename_i hkat
        have hch : g ∉ Spec.chain := by
          intro hm
          unfold Spec.governing at hg
          have := List.head?_dropWhile_not (p := fun c => decide (c ∈ Spec.chain)) (l := a.reverse)
          rw [hg] at this
          simp [hm] at this
        apply k2hP_of_takeWhile
        apply h g hg
        have h1 := is_char_katakana_iff.1 hkat
        rw [chain_iff, Bool.or_eq_true, keeps_iff, isDash_iff] at hch
        unfold Spec.KatakanaLetter Spec.In
        omega
      · cases hp

/-- vowels identified -/
def foldVowel (c : Char) : Char := if c ∈ ['あ', 'い', 'う', 'え', 'お'] then 'あ' else c

theorem hiraFromV_fold (x y : Char) (dest : Bool) (s : Str) : ∀ pre,
    (Spec.hiraFromV x dest pre s).map foldVowel = (Spec.hiraFromV y dest pre s).map foldVowel := by
  induction s with
  | nil => intro _; rfl
  | cons c s ih =>
    intro pre
    rw [Spec.hiraFromV, Spec.hiraFromV, List.map_append, List.map_append, ih]
    congr 1
    split
    · unfold Spec.markAfterV
      cases Spec.governing pre with
      | none => rfl
      | some g =>
        simp only []
        split
        · unfold Spec.longVowelV
          have hv : ∀ z : Char, List.map foldVowel (if z = 'a' then ['あ'] else if z = 'i' then ['い'] else
              if z = 'u' then ['う'] else if z = 'e' then ['え'] else [if dest then 'お' else 'う']) = ['あ'] := by
            intro z
            cases dest <;> repeat' split
            all_goals decide
          split
          · rw [hv, hv]
          · rfl
        · rfl
    · rfl

theorem hiraFromV_last {x y : Char} {dest : Bool} {s pre : Str} {c : Char}
    (h : (Spec.hiraFromV x dest pre s).getLast? = some c) :
    ∃ d, (Spec.hiraFromV y dest pre s).getLast? = some d ∧ (c ∉ ['あ', 'い', 'う', 'え', 'お'] → d = c) ∧
      (c ∈ ['あ', 'い', 'う', 'え', 'お'] → d ∈ ['あ', 'い', 'う', 'え', 'お']) := by
  have hm := congrArg List.getLast? (hiraFromV_fold x y dest s pre)
  rw [List.getLast?_map, List.getLast?_map, h] at hm
  cases hd : (Spec.hiraFromV y dest pre s).getLast? with
  | none => rw [hd] at hm; cases hm
  | some d =>
    rw [hd] at hm
    simp only [Option.map_some, Option.some.injEq, foldVowel] at hm
    refine ⟨d, rfl, fun hc => ?_, fun hc => ?_⟩
    · rw [if_neg hc] at hm
      split at hm
      · exact absurd (by rw [hm]; simp) hc
      · exact hm.symm
    · rw [if_pos hc] at hm
      split at hm
      · assumption
      · rw [← hm]; simp

/-- the hiragana of the first character of a text is its `toHira` -/
theorem k2hP_head_hira (std : Std) (b : Str) : (k2hP std true none b).head? = b.head?.map Spec.toHira := by
  cases b with
  | nil => rfl
  | cons c b =>
    rw [k2hP_cons]
    by_cases hk : keeps c = true
    · simp [hk, toHira_other (Or.inl hk)]
    · by_cases hd : isDash c = true
      · simp [hk, hd, toHira_other (Or.inr (Or.inl hd))]
      · by_cases ha : is_char_katakana c = true
        · simp [hk, hd, ha, k2hChar_toHira (by simpa using hk) (by simpa using hd) ha]
        · simp [hk, hd, ha, toHira_other (Or.inr (Or.inr (by simpa using ha)))]

theorem convertible_of_key {c : Char} (h : romajiKey c = true) : Spec.Convertible c := convertible_iff.2 (Or.inl h)

/-! ## C74 -/

/-- **C74** a text may be converted piece by piece if it is cut between two syllables. -/
theorem C74_cut {std : Std} (hstd : std.Lawful) (a b : Str) (o : Options) (hcut : Spec.CutPoint a b)
    (ha : o.upcase_katakana = false ∨ Spec.swallowed [] a = 0) {ra rb : Str}
    (h1 : to_romaji_with_opt std a o = .ok ra) (h2 : to_romaji_with_opt std b o = .ok rb) :
    to_romaji_with_opt std (a ++ b) o = .ok (ra ++ rb) := by
  rw [to_romaji_eq hstd] at h1 h2 ⊢
  cases h1
  cases h2
  congr 1
  have hk := k2hP_cut std a b hcut.marks
  have hpair : ∀ x y, (flagged std a).getLast? = some x → (flagged std b).head? = some y →
      pairOk x.1 y.1 = false := by
    intro x y hx hy
    have hx' : (k2hP std true none a).getLast? = some x.1 := by
      rw [← flagged_fst hstd, List.getLast?_map, hx]; rfl
    have hy' : (k2hP std true none b).head? = some y.1 := by
      rw [← flagged_fst hstd, List.head?_map, hy]; rfl
    rw [k2hP_head_hira] at hy'
    obtain ⟨y0, hy0, hyt⟩ := Option.map_eq_some_iff.1 hy'
    have hx2 : (Spec.hiraFromV (vuOf std) true [] a).getLast? = some x.1 := by
      rw [← k2hP_hiraFromV hstd true a []]; exact hx'
    obtain ⟨d, hd, hd1, hd2⟩ := hiraFromV_last (y := 'u') hx2
    obtain ⟨s1, s2, s3⟩ := hcut.syllables d y0 hd hy0
    rw [hyt] at s1 s2 s3
    cases hp : pairOk x.1 y.1 with
    | false => rfl
    | true =>
      exfalso
      simp only [pairOk, Bool.and_eq_true, Bool.or_eq_true, beq_iff_eq, List.contains_iff_mem] at hp
      obtain ⟨hkey, (hxt | hxn) | hsm⟩ := hp
      · exact s1 (by rw [hd1 (by rw [hxt]; decide), hxt]) (convertible_of_key hkey)
      · exact s2 (by rw [hd1 (by rw [hxn.1]; decide), hxn.1]) hxn.2
      · exact s3 hsm
  rw [← rom_append_pair hstd _ _ _ hpair]
  rcases ha with hu | hs
  · rw [hu]
    apply rom_flag
    rw [List.map_append, flagged_fst hstd, flagged_fst hstd, flagged_fst hstd, hk]
  · have hlen := k2hP_length hstd true a []
    rw [hs] at hlen
    congr 1
    unfold flagged
    rw [hk, List.map_append, List.zip_append]
    simpa [k2hPrev] using hlen

/-- the text しんあい|コーヒ|ー: both conditions matter -/
example : Spec.CutPoint "しん".toList "かんせん".toList := by
  refine ⟨fun x y hx hy => ?_, fun g hg hk => ?_⟩
  · cases (show some 'ん' = some x from hx)
    cases (show some 'か' = some y from hy)
    exact ⟨by decide, by decide, by decide⟩
  · cases (show some 'ん' = some g from hg)
    exact absurd hk (by decide)
example : to_romaji modernStd "しん".toList = .ok "shin".toList
    ∧ to_romaji modernStd "かんせん".toList = .ok "kansen".toList
    ∧ to_romaji modernStd "しんかんせん".toList = .ok "shinkansen".toList := by decide +kernel

/-- **C74** the conditions are needed: っ, ん, small kana and ー at the cut change the result. -/
theorem C74_needed : ∀ x ∈ [("っ", "た"), ("ん", "あ"), ("し", "ゃ"), ("コ", "ー")],
    ∀ ra rb, to_romaji modernStd x.1.toList = .ok ra → to_romaji modernStd x.2.toList = .ok rb →
      to_romaji modernStd (x.1.toList ++ x.2.toList) ≠ .ok (ra ++ rb) := by
  have h : ([("っ", "た"), ("ん", "あ"), ("し", "ゃ"), ("コ", "ー")].all fun x =>
      match to_romaji modernStd x.1.toList, to_romaji modernStd x.2.toList with
      | .ok ra, .ok rb => !decide (to_romaji modernStd (x.1.toList ++ x.2.toList) = .ok (ra ++ rb))
      | _, _ => false) = true := by decide +kernel
  intro x hx ra rb h1 h2 h3
  have := List.all_eq_true.1 h x hx
  rw [h1, h2] at this
  simp [h3] at this

/-- **C74** a text of many pieces cut between syllables -/
theorem C74_pieces {std : Std} (hstd : std.Lawful) (o : Options) (hu : o.upcase_katakana = false)
    (ps : List Str) (hcut : ∀ l p r, ps = l ++ p :: r → Spec.CutPoint p r.flatten) (rs : List Str)
    (h : ps.map (fun p => to_romaji_with_opt std p o) = rs.map .ok) :
    to_romaji_with_opt std ps.flatten o = .ok rs.flatten := by
  induction ps generalizing rs with
  | nil =>
    cases rs with
    | nil => rw [to_romaji_eq hstd]; simp [flagged, rom_nil]
    | cons r rs => cases h
  | cons p ps ih =>
    cases rs with
    | nil => cases h
    | cons r rs =>
      rw [List.map_cons, List.map_cons, List.cons.injEq] at h
      rw [List.flatten_cons, List.flatten_cons]
      exact C74_cut hstd p ps.flatten o (hcut [] p ps rfl) (Or.inl hu) h.1
        (ih (fun l q r e => hcut (p :: l) q r (by rw [e]; rfl)) rs h.2)

/-! ## C75 -/

theorem romaji_rows : (Spec.hiraKataToRoma.all fun row =>
    (row.1 == "" || !row.1.toList.contains 'ゔ' && !row.1.toList.contains 'ヴ' &&
      decide (Spec.swallowed [] row.1.toList = 0) &&
      decide (to_romaji_with_opt modernStd row.1.toList {} = .ok row.2.2.toList) &&
      decide (to_romaji_with_opt modernStd row.1.toList { upcase_katakana := true } = .ok row.2.2.toList)) &&
    (row.2.1 == "" || !row.2.1.toList.contains 'ゔ' && !row.2.1.toList.contains 'ヴ' &&
      decide (Spec.swallowed [] row.2.1.toList = 0) &&
      decide (to_romaji_with_opt modernStd row.2.1.toList {} = .ok row.2.2.toList) &&
      decide (to_romaji_with_opt modernStd row.2.1.toList { upcase_katakana := true }
        = .ok (row.2.2.toList.map Spec.asciiUpper)))) = true := by decide +kernel

/-- `to_romaji` looks at one option only -/
theorem to_romaji_upcase {std : Std} (hstd : std.Lawful) (s : Str) (o : Options) :
    to_romaji_with_opt std s o = to_romaji_with_opt std s { upcase_katakana := o.upcase_katakana } := by
  rw [to_romaji_eq hstd, to_romaji_eq hstd]

/-- **C75** every row of the kana → romaji table holds inside any text: the hiragana, between pieces it is not
romanized together with -/
theorem C75_hiragana {std : Std} (hstd : std.Lawful) (row : String × String × String)
    (hr : row ∈ Spec.hiraKataToRoma) (h0 : row.1 ≠ "") (a t : Str) (o : Options)
    (h1 : Spec.CutPoint a (row.1.toList ++ t)) (h2 : Spec.CutPoint row.1.toList t)
    (ha : o.upcase_katakana = false ∨ Spec.swallowed [] a = 0) {ra rt : Str}
    (e1 : to_romaji_with_opt std a o = .ok ra) (e2 : to_romaji_with_opt std t o = .ok rt) :
    to_romaji_with_opt std (a ++ (row.1.toList ++ t)) o = .ok (ra ++ (row.2.2.toList ++ rt)) := by
  have h := List.all_eq_true.1 romaji_rows row hr
  simp only [Bool.and_eq_true, Bool.or_eq_true, Bool.not_eq_true', beq_iff_eq, h0, false_or, decide_eq_true_iff,
    List.contains_eq_mem, decide_eq_false_iff_not] at h
  obtain ⟨⟨⟨⟨⟨v1, v2⟩, sw⟩, r1⟩, r2⟩, _⟩ := h
  refine C74_cut hstd _ _ o h1 ha e1 (C74_cut hstd _ _ o h2 (Or.inr sw) ?_ e2)
  rw [C33_deterministic_partial hstd modernStd_lawful _ _ v1 v2, to_romaji_upcase modernStd_lawful]
  cases o.upcase_katakana
  · exact r1
  · exact r2

/-- **C75** the katakana of every row, likewise; in capitals if `upcase_katakana` is set -/
theorem C75_katakana {std : Std} (hstd : std.Lawful) (row : String × String × String)
    (hr : row ∈ Spec.hiraKataToRoma) (h0 : row.2.1 ≠ "") (a t : Str) (o : Options)
    (h1 : Spec.CutPoint a (row.2.1.toList ++ t)) (h2 : Spec.CutPoint row.2.1.toList t)
    (ha : o.upcase_katakana = false ∨ Spec.swallowed [] a = 0) {ra rt : Str}
    (e1 : to_romaji_with_opt std a o = .ok ra) (e2 : to_romaji_with_opt std t o = .ok rt) :
    to_romaji_with_opt std (a ++ (row.2.1.toList ++ t)) o = .ok (ra ++
      ((if o.upcase_katakana then row.2.2.toList.map Spec.asciiUpper else row.2.2.toList) ++ rt)) := by
  have h := List.all_eq_true.1 romaji_rows row hr
  simp only [Bool.and_eq_true, Bool.or_eq_true, Bool.not_eq_true', beq_iff_eq, h0, false_or, decide_eq_true_iff,
    List.contains_eq_mem, decide_eq_false_iff_not] at h
  obtain ⟨_, ⟨⟨⟨v1, v2⟩, sw⟩, r1⟩, r2⟩ := h
  refine C74_cut hstd _ _ o h1 ha e1 (C74_cut hstd _ _ o h2 (Or.inr sw) ?_ e2)
  rw [C33_deterministic_partial hstd modernStd_lawful _ _ v1 v2, to_romaji_upcase modernStd_lawful]
  cases o.upcase_katakana
  · exact r1
  · exact r2

/-- a row in the middle of a text -/
example : ("まっちゃ", "マッチャ", "matcha") ∈ Spec.hiraKataToRoma := by decide +kernel
example : Spec.CutPoint "あの".toList ("まっちゃ".toList ++ "を".toList) ∧ Spec.CutPoint "まっちゃ".toList "を".toList := by
  refine ⟨⟨fun x y hx hy => ?_, fun g hg hk => ?_⟩, ⟨fun x y hx hy => ?_, fun g hg hk => ?_⟩⟩
  · cases (show some 'の' = some x from hx)
    cases (show some 'ま' = some y from hy)
    exact ⟨by decide, by decide, by decide⟩
  · cases (show some 'の' = some g from hg)
    exact absurd hk (by decide)
  · cases (show some 'ゃ' = some x from hx)
    cases (show some 'を' = some y from hy)
    exact ⟨by decide, by decide, by decide⟩
  · cases (show some 'ゃ' = some g from hg)
    exact absurd hk (by decide)

end WanaKana
