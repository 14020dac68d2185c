import Verif.Props.RomajiPieces
import Verif.Spec.RomajiVu
import Verif.Props.RomajiDet
import Verif.Proofs.StdUnicode
/-! # C101: exactly when a text can be converted to romaji piece by piece, with ゔ -/

namespace WanaKana
open RNode

theorem romH_walk_end {std : Std} {q : Str} {n : RNode} (hq : q ≠ []) (h : TO_ROMAJI_NODE_TREE.rwalk std q = some n) :
    romH std q = n.output := by
  have hs : RStops std TO_ROMAJI_NODE_TREE q n q.length := ⟨by simp, by rw [List.take_length, h], by simp⟩
  rw [romH_hit hs (by simpa using hq), List.drop_length, romH_nil, List.append_nil]

theorem romH_walk_leaf {std : Std} {q : Str} {n : RNode} (hq : q ≠ []) (h : TO_ROMAJI_NODE_TREE.rwalk std q = some n)
    (hts : n.ts = []) (v : Str) : romH std (q ++ v) = n.output ++ romH std v := by
  have hs : RStops std TO_ROMAJI_NODE_TREE (q ++ v) n q.length := by
    refine ⟨by simp, ?_, ?_⟩
    · rw [List.take_left', h]
      rfl
    · intro c _
      unfold rfind
      rw [hts]
      cases std.binarySearch _ c <;> simp
  rw [romH_hit hs (by simpa using hq), List.drop_left']
  rfl

/-- an entry of ゔ: the one for `u` merges with every small kana, the others end there -/
def vuEntry (n : RNode) : Bool :=
  match n.output.getLast? with
  | some 'u' => Spec.smallKana.all fun k => match n.mwalk [k] with
    | some m => m.ts.isEmpty && decide (n.output.length ≤ m.output.length) && !n.output.isPrefixOf m.output
    | none => false
  | some _ => n.ts.isEmpty
  | none => false

theorem vu_entry {std : Std} (hstd : std.Lawful) {pre : Str} (hp : pre = [] ∨ pre = ['っ']) :
    ∃ n, TO_ROMAJI_NODE_TREE.rwalk std (pre ++ ['ゔ']) = some n ∧ vuEntry n = true := by
  have hc : (TO_ROMAJI_NODE_TREE.paths.all fun q =>
      !(q.1 == ['ゔ'] || q.1 == ['っ', 'ゔ']) || vuEntry q.2) = true := by decide +kernel
  rcases hp with rfl | rfl
  · obtain ⟨n, hn, -⟩ := vu_node hstd
    have := rwalk_check hstd hc hn
    exact ⟨n, hn, by simpa using this⟩
  · obtain ⟨_, n, -, -, hn, -⟩ := vu_node2 hstd
    have := rwalk_check hstd hc hn
    exact ⟨n, hn, by simpa using this⟩

theorem romH_vu_good {std : Std} (hstd : std.Lawful) {pre : Str} (hp : pre = [] ∨ pre = ['っ'])
    (hu : (romH std (pre ++ ['ゔ'])).getLast? ≠ some 'u') (v : Str) :
    romH std (pre ++ 'ゔ' :: v) = romH std (pre ++ ['ゔ']) ++ romH std v := by
  obtain ⟨n, hn, he⟩ := vu_entry hstd hp
  rw [romH_walk_end (by simp) hn] at hu ⊢
  have hts : n.ts = [] := by
    unfold vuEntry at he
    split at he
    · rename_i h; exact absurd h hu
    · simpa using he
    · cases he
  rw [← romH_walk_leaf (by simp) hn hts]
  simp

theorem romH_vu_bad {std : Std} (hstd : std.Lawful) {pre : Str} (hp : pre = [] ∨ pre = ['っ'])
    (hu : (romH std (pre ++ ['ゔ'])).getLast? = some 'u') {k : Char} (hk : k ∈ Spec.smallKana) (v X : Str) :
    romH std (pre ++ 'ゔ' :: k :: v) ≠ romH std (pre ++ ['ゔ']) ++ X := by
  obtain ⟨n, hn, he⟩ := vu_entry hstd hp
  rw [romH_walk_end (by simp) hn] at hu ⊢
  unfold vuEntry at he
  rw [hu] at he
  have he := List.all_eq_true.1 he k hk
  have hkv : k ≠ 'ゔ' := by rintro rfl; revert hk; decide
  split at he
  · rename_i m hm
    simp only [Bool.and_eq_true, decide_eq_true_iff, Bool.not_eq_true', List.isEmpty_iff] at he
    have hw : TO_ROMAJI_NODE_TREE.rwalk std (pre ++ ['ゔ', k]) = some m := by
      rw [show pre ++ ['ゔ', k] = (pre ++ ['ゔ']) ++ [k] by simp, rwalk_append, hn]
      simp only [Option.bind]
      rw [rwalk_eq_mwalk_at hstd [k] (by simp [Ne.symm hkv]) _ _ hn, hm]
    rw [show pre ++ 'ゔ' :: k :: v = (pre ++ ['ゔ', k]) ++ v by simp, romH_walk_leaf (by simp) hw he.1.1]
    intro e
    have hpre : n.output <+: m.output := by
      refine ⟨m.output.drop n.output.length, ?_⟩
      have := congrArg (List.take n.output.length) e
      rw [List.take_append_of_le_length he.1.2, List.take_left' rfl] at this
      calc n.output ++ m.output.drop n.output.length
          = m.output.take n.output.length ++ m.output.drop n.output.length := by rw [this]
        _ = m.output := List.take_append_drop _ _
    rw [← List.isPrefixOf_iff_prefix, he.2] at hpre
    cases hpre
  · cases he

/-- the vowels written for ゔ and っゔ -/
structure VuVowels (std : Std) (x y : Char) : Prop where
  alone : romH std ['ゔ'] = ['v', x]
  sokuon : romH std ['っ', 'ゔ'] = ['v', 'v', y]

theorem vuVowels_last {std : Std} {x y : Char} (h : VuVowels std x y) {pre : Str} (hp : pre = [] ∨ pre = ['っ']) :
    (romH std (pre ++ ['ゔ'])).getLast? = some (if pre = ['っ'] then y else x) := by
  rcases hp with rfl | rfl
  · rw [List.nil_append, h.alone]; rfl
  · rw [List.singleton_append, h.sokuon]; rfl

theorem vu_split {std : Std} (hstd : std.Lawful) (z : Str) : ∃ z' pre, z = z' ++ pre ∧ (pre = [] ∨ pre = ['っ']) ∧
    (pre = ['っ'] ↔ z.getLast? = some 'っ') ∧
    ∀ v, romH std (z ++ 'ゔ' :: v) = romH std z' ++ romH std (pre ++ 'ゔ' :: v) := by
  obtain ⟨z', pre, e, hp, hs⟩ := romH_split hstd (c := 'ゔ') (by decide) (by decide) z
  refine ⟨z', pre, e, ?_, ?_, hs⟩
  · rcases hp with h | h
    · exact Or.inl h.1
    · exact Or.inr h.1
  · rcases hp with h | h
    · simp [h.1, h.2]
    · simp [h.1, h.2]

theorem romH_badV {std : Std} (hstd : std.Lawful) {x y : Char} (hxy : VuVowels std x y) {z w : Str}
    (h : Spec.MergedKanaV x y z w) (v X : Str) :
    romH std (z ++ (w ++ v)) ≠ romH std z ++ (romH std w ++ X) := by
  by_cases hz : z.getLast? = some 'ゔ'
  · obtain ⟨⟨a, k, ha, hk, h1⟩, h2⟩ := h
    have h2 := h2 hz
    rw [hz] at ha; cases ha
    have hk' : k ∈ Spec.smallKana := by
      rcases h1 with ⟨e, -⟩ | ⟨e, -⟩ | ⟨-, e⟩
      · exact absurd e (by decide)
      · exact absurd e (by decide)
      · exact e
    obtain ⟨z, rfl⟩ := List.getLast?_eq_some_iff.1 hz
    obtain ⟨w, rfl⟩ := List.head?_eq_some_iff.1 hk
    rw [List.dropLast_concat] at h2
    obtain ⟨z', pre, rfl, hp, hpl, hs⟩ := vu_split hstd z
    have hl := vuVowels_last hxy hp
    have hu : (if pre = ['っ'] then y else x) = 'u' := by
      by_cases hpp : pre = ['っ']
      · rw [if_pos (hpl.1 hpp)] at h2; rw [if_pos hpp, h2]
      · rw [if_neg (fun e => hpp (hpl.2 e))] at h2; rw [if_neg hpp, h2]
    rw [hu] at hl
    rw [List.append_assoc (z' ++ pre), List.singleton_append, hs, hs]
    intro e
    rw [List.append_assoc] at e
    exact romH_vu_bad hstd hp hl hk' (w ++ v) _ (List.append_cancel_left e)
  · exact romH_bad hstd h.1 (fun e => absurd e hz) v X

theorem romH_goodV {std : Std} (hstd : std.Lawful) {x y : Char} (hxy : VuVowels std x y) {z w : Str}
    (h : ¬ Spec.MergedKanaV x y z w) : romH std (z ++ w) = romH std z ++ romH std w := by
  by_cases hm : Spec.MergedKana z w
  · have h2 : ¬ (z.getLast? = some 'ゔ' → if z.dropLast.getLast? = some 'っ' then y = 'u' else x = 'u') :=
      fun e => h ⟨hm, e⟩
    have hz : z.getLast? = some 'ゔ' := Classical.byContradiction fun hz => h2 fun e => absurd e hz
    have h2 : ¬ (if z.dropLast.getLast? = some 'っ' then y = 'u' else x = 'u') := fun e => h2 fun _ => e
    obtain ⟨z, rfl⟩ := List.getLast?_eq_some_iff.1 hz
    rw [List.dropLast_concat] at h2
    obtain ⟨z', pre, rfl, hp, hpl, hs⟩ := vu_split hstd z
    have hl := vuVowels_last hxy hp
    have hu : (if pre = ['っ'] then y else x) ≠ 'u' := by
      by_cases hpp : pre = ['っ']
      · rw [if_pos (hpl.1 hpp)] at h2; rw [if_pos hpp]; exact h2
      · rw [if_neg (fun e => hpp (hpl.2 e))] at h2; rw [if_neg hpp]; exact h2
    rw [List.append_assoc (z' ++ pre), List.singleton_append, hs, hs,
      romH_vu_good hstd hp (by rw [hl]; simpa using hu), List.append_assoc]
  · exact romH_good hstd hm

theorem romH_piecesV {std : Std} (hstd : std.Lawful) {x y : Char} (hxy : VuVowels std x y) (r : List Str) : ∀ l : List Str,
    (romH std (l.flatten ++ r.flatten) = romH std l.flatten ++ (r.map (romH std)).flatten ↔
      ∀ m p r', r = m ++ p :: r' → ¬ Spec.MergedKanaV x y (l.flatten ++ m.flatten) p) := by
  induction r with
  | nil =>
    intro l
    simp
  | cons p r ih =>
    intro l
    have hl : ∀ m : List Str, (l ++ [p]).flatten ++ m.flatten = l.flatten ++ (p :: m).flatten := by intro m; simp
    by_cases hm : Spec.MergedKanaV x y l.flatten p
    · constructor
      · intro e
        exfalso
        rw [List.flatten_cons, List.map_cons, List.flatten_cons] at e
        exact romH_badV hstd hxy hm _ _ e
      · intro h
        exact absurd hm (by simpa using h [] p r rfl)
    · have h1 := ih (l ++ [p])
      rw [← hl]
      rw [List.flatten_append, List.flatten_singleton, romH_goodV hstd hxy hm, List.append_assoc (romH std _)] at h1
      rw [List.flatten_append, List.flatten_singleton, List.map_cons, List.flatten_cons, h1]
      constructor
      · intro h m q r' e
        cases m with
        | nil => cases e; simpa using hm
        | cons a m =>
          cases e
          have := h m q r' rfl
          rwa [← List.flatten_singleton (l := p), ← List.flatten_append, hl] at this
      · intro h m q r' e
        have := h (p :: m) q r' (by rw [e]; rfl)
        rwa [← hl, List.flatten_append, List.flatten_singleton] at this

theorem getLast_fold {z z' : Str} (h : z.map foldVowel = z'.map foldVowel) (d : Char)
    (hd : d ∉ ['あ', 'い', 'う', 'え', 'お']) : z.getLast? = some d ↔ z'.getLast? = some d := by
  have h1 := congrArg List.getLast? h
  rw [List.getLast?_map, List.getLast?_map] at h1
  have key : ∀ t : Str, t.getLast? = some d ↔ t.getLast?.map foldVowel = some d := by
    intro t
    cases t.getLast? with
    | none => simp
    | some c => simp [fold_eq d hd]
  rw [key z, key z', h1]

theorem mergedKanaV_form {std : Std} (hstd : std.Lawful) (x y : Char) (a b : Str) :
    Spec.MergedKanaV x y (k2hP std true none a) (k2hP std true none b) ↔
      Spec.MergedKanaV x y (Spec.hiraganaForm a) (Spec.hiraganaForm b) := by
  unfold Spec.MergedKanaV
  rw [mergedKana_form hstd, getLast_fold (k2hP_form hstd a) 'ゔ' (by decide)]
  have h2 : (k2hP std true none a).dropLast.map foldVowel = (Spec.hiraganaForm a).dropLast.map foldVowel := by
    rw [List.map_dropLast, List.map_dropLast, k2hP_form hstd]
  have h3 := getLast_fold h2 'っ' (by decide)
  by_cases hc : (Spec.hiraganaForm a).dropLast.getLast? = some 'っ'
  · rw [if_pos hc, if_pos (h3.2 hc)]
  · rw [if_neg hc, if_neg (fun e => hc (h3.1 e))]

/-! ## C101 -/

theorem vu_form (std : Std) : k2hP std true none "ゔ".toList = ['ゔ'] ∧ k2hP std true none "っゔ".toList = ['っ', 'ゔ'] := by
  constructor
  · show k2hP std true none ['ゔ'] = ['ゔ']
    rw [k2hP_cons]
    rfl
  · show k2hP std true none ['っ', 'ゔ'] = ['っ', 'ゔ']
    rw [k2hP_cons, k2hP_cons]
    rfl

theorem vuVowels_of {std : Std} (hstd : std.Lawful) {o : Options} (ho : o.upcase_katakana = false) {x y : Char}
    (h1 : to_romaji_with_opt std "ゔ".toList o = .ok ['v', x])
    (h2 : to_romaji_with_opt std "っゔ".toList o = .ok ['v', 'v', y]) : VuVowels std x y := by
  rw [to_romaji_eq hstd, ho, rom_romH, flagged_fst hstd, Except.ok.injEq] at h1 h2
  rw [(vu_form std).1] at h1
  rw [(vu_form std).2] at h2
  exact ⟨h1, h2⟩

/-- **C101** ゔ is always written as `v` and a vowel, and after っ as `vv` and a vowel -/
theorem C101_vu {std : Std} (hstd : std.Lawful) (o : Options) (ho : o.upcase_katakana = false) :
    ∃ x ∈ "aiueo".toList, ∃ y ∈ "aiueo".toList, to_romaji_with_opt std "ゔ".toList o = .ok ['v', x] ∧
      to_romaji_with_opt std "っゔ".toList o = .ok ['v', 'v', y] := by
  have hc : (TO_ROMAJI_NODE_TREE.paths.all fun q =>
      (!(q.1 == ['ゔ']) || "aiueo".toList.any fun x => q.2.output == ['v', x]) &&
      (!(q.1 == ['っ', 'ゔ']) || "aiueo".toList.any fun x => q.2.output == ['v', 'v', x])) = true := by decide +kernel
  obtain ⟨n, hn, -⟩ := vu_node hstd
  obtain ⟨_, m, -, -, hm, -⟩ := vu_node2 hstd
  have h1 := rwalk_check hstd hc hn
  have h2 := rwalk_check hstd hc hm
  rw [Bool.and_eq_true] at h1 h2
  have h1 : ("aiueo".toList.any fun x => n.output == ['v', x]) = true := by simpa using h1.1
  have h2 : ("aiueo".toList.any fun x => m.output == ['v', 'v', x]) = true := by simpa using h2.2
  obtain ⟨x, hx, ex⟩ := List.any_eq_true.1 h1
  obtain ⟨y, hy, ey⟩ := List.any_eq_true.1 h2
  refine ⟨x, hx, y, hy, ?_, ?_⟩
  · rw [to_romaji_eq hstd, ho, rom_romH, flagged_fst hstd, (vu_form std).1, romH_walk_end (by simp) hn, beq_iff_eq.1 ex]
  · rw [to_romaji_eq hstd, ho, rom_romH, flagged_fst hstd, (vu_form std).2, romH_walk_end (by simp) hm, beq_iff_eq.1 ey]

/-- **C101** the romaji of the pieces of a text are the romaji of the text exactly if no piece is romanized together with the
text before it -/
theorem C101_pieces {std : Std} (hstd : std.Lawful) (o : Options) (ho : o.upcase_katakana = false) (x y : Char)
    (h1 : to_romaji_with_opt std "ゔ".toList o = .ok ['v', x])
    (h2 : to_romaji_with_opt std "っゔ".toList o = .ok ['v', 'v', y]) (ps rs : List Str)
    (h : ps.mapM (fun p => to_romaji_with_opt std p o) = .ok rs) :
    to_romaji_with_opt std ps.flatten o = .ok rs.flatten ↔
      ∀ l p r, ps = l ++ p :: r → ¬ Spec.MergedV x y l.flatten p := by
  have hxy := vuVowels_of hstd ho h1 h2
  have hr : ∀ s, to_romaji_with_opt std s o = .ok (romH std (k2hP std true none s)) := by
    intro s
    rw [to_romaji_eq hstd, ho, rom_romH, flagged_fst hstd]
  rw [mapM_ok ps hr] at h
  cases h
  rw [hr, Except.ok.injEq]
  by_cases hp : ∀ l p r, ps = l ++ p :: r → ¬ Spec.Prolonged l.flatten p
  · have e := k2hP_parts std ps [] (by simpa using hp)
    have ep : ∀ l r, ps = l ++ r → (l.map (k2hP std true none)).flatten = k2hP std true none l.flatten := by
      rintro l r rfl
      have := k2hP_parts std l [] (fun m p r' e => by
        have := hp m p (r' ++ r) (by rw [e]; simp)
        simpa using this)
      rw [List.flatten_nil, List.nil_append, show k2hP std true none [] = [] from rfl, List.nil_append] at this
      exact this.symm
    have hm := romH_piecesV hstd hxy (ps.map (k2hP std true none)) []
    rw [List.flatten_nil, List.nil_append, romH_nil, List.nil_append, List.map_map] at hm
    rw [List.flatten_nil, List.nil_append, show k2hP std true none [] = [] from rfl, List.nil_append] at e
    rw [e]
    refine hm.trans ⟨?_, ?_⟩
    · intro hm l p r e hmer
      rcases hmer with hmer | hmer
      · exact hp l p r e hmer
      · refine hm (l.map (k2hP std true none)) (k2hP std true none p) (r.map (k2hP std true none)) (by rw [e]; simp) ?_
        rw [List.nil_append, ep l (p :: r) e, mergedKanaV_form hstd]
        exact hmer
    · intro hm m p r' e hmer
      obtain ⟨l, q, rfl, rfl, e2⟩ := List.map_eq_append_iff.1 e
      obtain ⟨p', r, rfl, rfl, rfl⟩ := List.map_eq_cons_iff.1 e2
      rw [List.nil_append, ep l (p' :: r) rfl, mergedKanaV_form hstd] at hmer
      exact hm l p' r rfl (Or.inr hmer)
  · constructor
    · intro e
      exfalso
      apply hp
      rintro l p r rfl hpr
      have hlt := marks_pieces_lt hstd l r p hpr
      have e := congrArg (List.countP (· == '-')) e
      rw [romH_dashes hstd] at e
      have hs : ∀ L : List Str, (L.map fun s => romH std (k2hP std true none s)).flatten.countP (· == '-') =
          (L.flatMap (k2hP std true none)).countP isMark := by
        intro L
        induction L with
        | nil => rfl
        | cons a L ih =>
          rw [List.map_cons, List.flatten_cons, List.countP_append, ih, romH_dashes hstd, List.flatMap_cons,
            List.countP_append]
      rw [hs] at e
      omega
    · intro hm
      exact absurd (fun l p r e hpr => hm l p r e (Or.inl hpr)) hp

/-- **C101** two texts may be converted separately exactly if they are not romanized together where they meet -/
theorem C101_cut {std : Std} (hstd : std.Lawful) (o : Options) (ho : o.upcase_katakana = false) (x y : Char)
    (hx : to_romaji_with_opt std "ゔ".toList o = .ok ['v', x])
    (hy : to_romaji_with_opt std "っゔ".toList o = .ok ['v', 'v', y]) (a b ra rb : Str)
    (h1 : to_romaji_with_opt std a o = .ok ra) (h2 : to_romaji_with_opt std b o = .ok rb) :
    to_romaji_with_opt std (a ++ b) o = .ok (ra ++ rb) ↔ ¬ Spec.MergedV x y a b := by
  have hnil : ∀ p : Str, ¬ Spec.MergedV x y [] p := by
    rintro p (⟨g, h, -⟩ | ⟨⟨x, y, h, -⟩, -⟩) <;> cases h
  have h := C101_pieces hstd o ho x y hx hy [a, b] [ra, rb] (by rw [List.mapM_cons, h1, ok_bind, List.mapM_cons, h2]; rfl)
  simp only [List.flatten_cons, List.flatten_nil, List.append_nil] at h
  rw [h]
  constructor
  · intro h
    simpa using h [a] b [] rfl
  · intro h l p r e
    match l, e with
    | [], e => exact hnil p
    | [x], e => cases e; simpa using h
    | x :: y :: l, e => cases l <;> cases e

/-- **C101** in particular for the tokens of a text -/
theorem C101_tokens {std : Std} (hstd : std.Lawful) (o : Options) (ho : o.upcase_katakana = false) (x y : Char)
    (hx : to_romaji_with_opt std "ゔ".toList o = .ok ['v', x])
    (hy : to_romaji_with_opt std "っゔ".toList o = .ok ['v', 'v', y]) (s : Str) (compact : Bool)
    (rs : List Str) (h : (tokenize_with_opt s compact).mapM (fun p => to_romaji_with_opt std p o) = .ok rs) :
    to_romaji_with_opt std s o = .ok rs.flatten ↔
      ∀ l p r, tokenize_with_opt s compact = l ++ p :: r → ¬ Spec.MergedV x y l.flatten p := by
  have := C101_pieces hstd o ho x y hx hy _ rs h
  rwa [(C45_concat s compact).1] at this

/-- a search that returns the first match -/
def firstStd : Std := stdWith fun keys k => keys.findIdx? (· == k)

theorem firstStd_lawful : firstStd.Lawful := by
  apply stdWith_lawful
  · intro keys k i _ h
    obtain ⟨hlt, h1, _⟩ := List.findIdx?_eq_some_iff_getElem.1 h
    rw [List.getElem?_eq_getElem hlt, beq_iff_eq.1 h1]
  · intro keys k _ h hk
    rw [List.findIdx?_eq_none_iff] at h
    have := h k hk
    simp at this

/-- **C101** with the binary search of Rust 1.82 and later, and with that of Rust 1.52 to 1.81, ゔ merges with nothing; a
search that finds the first of equal keys would let it merge -/
theorem C101_search (o : Options) (ho : o.upcase_katakana = false) :
    to_romaji_with_opt rustStd "ゔ".toList o = .ok "vo".toList ∧
    to_romaji_with_opt rustStd "っゔ".toList o = .ok "vvo".toList ∧
    to_romaji_with_opt legacyStd "ゔ".toList o = .ok "vo".toList ∧
    to_romaji_with_opt legacyStd "っゔ".toList o = .ok "vve".toList ∧
    firstStd.Lawful ∧
    to_romaji_with_opt firstStd "ゔ".toList o = .ok "vu".toList ∧
    to_romaji_with_opt firstStd "っゔ".toList o = .ok "vvu".toList := by
  have h : ∀ {std : Std}, std.Lawful → ∀ s, to_romaji_with_opt std s o = to_romaji_with_opt std s {} := by
    intro std hstd s
    rw [to_romaji_eq hstd, to_romaji_eq hstd, ho]
  rw [h rustStd_lawful, h rustStd_lawful, h legacyStd_lawful, h legacyStd_lawful, h firstStd_lawful, h firstStd_lawful]
  refine ⟨by decide +kernel, by decide +kernel, by decide +kernel, by decide +kernel, firstStd_lawful, by decide +kernel,
    by decide +kernel⟩

/-- the searches differ in ヴィ -/
example : to_romaji rustStd "ヴィ".toList = .ok "voi".toList ∧ to_romaji firstStd "ヴィ".toList = .ok "vyi".toList ∧
    ¬ Spec.MergedV 'o' 'o' "ヴ".toList "ィ".toList ∧ Spec.MergedV 'u' 'u' "ヴ".toList "ィ".toList := by
  refine ⟨by decide +kernel, by decide +kernel, ?_,
    Or.inr ⟨⟨'ゔ', 'ぃ', by decide, by decide, Or.inr (Or.inr ⟨by decide, by decide⟩)⟩, fun _ => by decide⟩⟩
  rintro (⟨g, hg, -, hm⟩ | ⟨-, h⟩)
  · revert hm; decide
  · exact absurd (h (by decide)) (by decide)

end WanaKana
