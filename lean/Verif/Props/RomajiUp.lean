import Verif.Props.RomajiVu
import Verif.Props.Casing
import Verif.Spec.RomajiUp
/-! # C121: exactly when a text can be converted to romaji piece by piece, with katakana in capitals -/

namespace WanaKana
open RNode

/-! ## Lower case -/

theorem asciiLower_toNat (c : Char) : (Spec.asciiLower c).toNat =
    if 0x41 ≤ c.toNat ∧ c.toNat ≤ 0x5A then c.toNat + 0x20 else c.toNat := by
  unfold Spec.asciiLower
  by_cases h : Spec.AsciiUpper c
  · rw [if_pos h]
    unfold Spec.AsciiUpper Spec.In at h
    rw [if_pos h, toNat_ofNat_lt (by omega)]
  · rw [if_neg h]
    unfold Spec.AsciiUpper Spec.In at h
    rw [if_neg h]

theorem asciiLower_key {c : Char} (h : romajiKey c = true) : Spec.asciiLower c = c := by
  apply char_ext
  rw [asciiLower_toNat, if_neg]
  rw [romajiKey_iff] at h
  simp only [List.mem_cons, List.not_mem_nil, or_false] at h
  omega

theorem key_asciiLower {c : Char} (h : romajiKey (Spec.asciiLower c) = true) : Spec.asciiLower c = c := by
  apply char_ext
  rw [romajiKey_iff] at h
  simp only [List.mem_cons, List.not_mem_nil, or_false] at h
  have := asciiLower_toNat c
  split at this <;> omega

theorem asciiLower_out {c : Char} (h : romajiOut c = true) : Spec.asciiLower c = c ∧ Spec.asciiLower (aUp c) = c := by
  have h1 : ¬ (0x41 ≤ c.toNat ∧ c.toNat ≤ 0x5A) := by
    unfold romajiOut at h
    simp only [Bool.or_eq_true, decide_eq_true_iff, List.contains_iff_mem] at h
    rcases h with h | h
    · omega
    · have : (" ,.‘’“”~/-!():?[]{}'".toList.all fun c => !decide (0x41 ≤ c.toNat ∧ c.toNat ≤ 0x5A)) = true := by decide
      have := List.all_eq_true.1 this c h
      rw [Bool.not_eq_true', decide_eq_false_iff_not] at this
      exact this
  constructor
  · apply char_ext; rw [asciiLower_toNat, if_neg h1]
  · apply char_ext
    rw [asciiLower_toNat, aUp_toNat]
    by_cases h2 : 97 ≤ c.toNat ∧ c.toNat ≤ 122
    · rw [if_pos h2, if_pos (by omega)]; omega
    · rw [if_neg h2, if_neg h1]

/-- apart from the case, capitals make no difference -/
theorem rom_lower {std : Std} (hstd : std.Lawful) (up : Bool) (z : List (Char × Bool)) :
    (rom std up z).map Spec.asciiLower = romH std ((z.map Prod.fst).map Spec.asciiLower) := by
  induction z using rom_ind (std := std) with
  | nil => rw [rom_nil]; exact (romH_nil std).symm
  | miss c b z h ih =>
    rw [rom_miss h, List.map_cons, List.map_cons, List.map_cons, romH_miss, ih]
    by_cases hk : romajiKey (Spec.asciiLower c) = true
    · simp only [key_asciiLower hk]; exact h
    · exact root_none hstd (by simpa using hk)
  | hit z n k hk h ih =>
    obtain ⟨hp, ho, -, -⟩ := rwalk_facts hstd h.walk
    have hs : RStops std TO_ROMAJI_NODE_TREE ((z.map Prod.fst).map Spec.asciiLower) n k := by
      refine ⟨by simpa using h.le, ?_, ?_⟩
      · rw [← List.map_take]
        have : ((z.map Prod.fst).take k).map Spec.asciiLower = (z.map Prod.fst).take k := by
          conv => rhs; rw [← List.map_id ((z.map Prod.fst).take k)]
          exact List.map_congr_left fun c hc => asciiLower_key (hp c hc)
        rw [this]; exact h.walk
      · intro c hc
        rw [← List.map_drop, List.head?_map] at hc
        obtain ⟨d, hd, rfl⟩ := Option.map_eq_some_iff.1 hc
        by_cases hk : romajiKey (Spec.asciiLower d) = true
        · rw [key_asciiLower hk]; exact h.stop d hd
        · cases hf : n.rfind std (Spec.asciiLower d) with
          | none => rfl
          | some m =>
            have hw := rwalk_append (std := std) ((z.map Prod.fst).take k) [Spec.asciiLower d] TO_ROMAJI_NODE_TREE
            rw [h.walk] at hw
            simp only [Option.bind, rwalk_singleton, hf] at hw
            exact absurd ((rwalk_facts hstd hw).1 _ (by simp)) hk
    rw [rom_hit h hk, romH_hit hs hk, List.map_append, ih, List.map_drop, List.map_drop]
    congr 1
    split
    · rw [List.map_map]
      conv => rhs; rw [← List.map_id n.output]
      exact List.map_congr_left fun c hc => (asciiLower_out (ho c hc)).2
    · conv => rhs; rw [← List.map_id n.output]
      exact List.map_congr_left fun c hc => (asciiLower_out (ho c hc)).1

theorem asciiLower_keyEq {c d : Char} (hd : romajiKey d = true) : Spec.asciiLower c = d ↔ c = d := by
  constructor
  · rintro rfl; exact (key_asciiLower hd).symm
  · rintro rfl; exact asciiLower_key hd

theorem asciiLower_mem {c : Char} {l : List Char} (hl : l.all romajiKey = true) : Spec.asciiLower c ∈ l ↔ c ∈ l := by
  constructor
  · intro h
    have := key_asciiLower (List.all_eq_true.1 hl _ h)
    rwa [this] at h
  · intro h
    rw [asciiLower_key (List.all_eq_true.1 hl _ h)]
    exact h

theorem getLast_lower {z : Str} {d : Char} (hd : romajiKey d = true) :
    (z.map Spec.asciiLower).getLast? = some d ↔ z.getLast? = some d := by
  rw [List.getLast?_map]
  cases z.getLast? with
  | none => simp
  | some t => simp [asciiLower_keyEq hd]

theorem mergedKanaV_lower {x y : Char} {z w : Str} (h : Spec.MergedKanaV x y z w) :
    Spec.MergedKanaV x y (z.map Spec.asciiLower) (w.map Spec.asciiLower) := by
  obtain ⟨⟨a, b, ha, hb, h⟩, hv⟩ := h
  constructor
  · refine ⟨Spec.asciiLower a, Spec.asciiLower b, by rw [List.getLast?_map, ha]; rfl, by rw [List.head?_map, hb]; rfl, ?_⟩
    rw [asciiLower_keyEq (by decide), asciiLower_keyEq (by decide), asciiLower_keyEq (by decide), asciiLower_mem (by decide +kernel),
      asciiLower_mem (by decide +kernel), asciiLower_mem (by decide +kernel), asciiLower_mem (by decide +kernel)]
    rcases h with ⟨h1, h2, h3⟩ | ⟨h1, h2, h3⟩ | h
    · refine Or.inl ⟨h1, h2, fun e => ?_⟩
      obtain ⟨u, hu, e⟩ := h3 e
      refine ⟨u, hu, ?_⟩
      rw [List.getElem?_map, e, Option.map_some]
      have : Spec.afterN.all romajiKey = true := by decide +kernel
      rw [asciiLower_key (List.all_eq_true.1 this u hu)]
    · refine Or.inr (Or.inl ⟨h1, h2, ?_⟩)
      rw [← List.map_dropLast, ne_eq, getLast_lower (by decide)]
      exact h3
    · exact Or.inr (Or.inr h)
  · rw [getLast_lower (by decide), ← List.map_dropLast, ]
    intro e
    have := hv e
    by_cases hc : z.dropLast.getLast? = some 'っ'
    · rw [if_pos hc] at this; rw [if_pos ((getLast_lower (by decide)).2 hc)]; exact this
    · rw [if_neg hc] at this; rw [if_neg (fun e => hc ((getLast_lower (by decide)).1 e))]; exact this

theorem rom_dashes {std : Std} (hstd : std.Lawful) (up : Bool) (z : List (Char × Bool)) :
    (rom std up z).countP (· == '-') = (z.map Prod.fst).countP isMark := by
  have h := congrArg (List.countP (· == '-')) (rom_lower hstd up z)
  rw [romH_dashes hstd, List.countP_map, List.countP_map] at h
  have e1 : ((fun c : Char => c == '-') ∘ Spec.asciiLower) = fun c => c == '-' := by
    funext c
    rw [Bool.eq_iff_iff]
    simp only [Function.comp, beq_iff_eq, char_eq_iff, asciiLower_toNat, Char.reduceToNat]
    split <;> omega
  have e2 : (isMark ∘ Spec.asciiLower) = isMark := by
    funext c
    rw [Bool.eq_iff_iff]
    simp only [Function.comp, isMark, Bool.or_eq_true, beq_iff_eq, char_eq_iff, asciiLower_toNat, Char.reduceToNat]
    split <;> omega
  rw [e1, e2] at h
  exact h

/-! ## Marked hiragana -/

/-- `Spec.Spoiled` for marked hiragana -/
def SpoiledM (z w : List (Char × Bool)) : Prop :=
  z.getLast? = some ('っ', false) ∧ ∃ c, w.head? = some (c, true) ∧ c ∈ Spec.unchangedBySokuon ∧
    (c = 'に' → ∀ k, w[1]? = some k → k.1 ∈ Spec.smallKana → k.2 = true)

theorem romU_leaf {std : Std} {q : List (Char × Bool)} {n : RNode} (up : Bool) (hq : q ≠ [])
    (h : TO_ROMAJI_NODE_TREE.rwalk std (q.map Prod.fst) = some n) (hts : n.ts = []) (v : List (Char × Bool)) :
    rom std up (q ++ v) = rom std up q ++ rom std up v := by
  have hs : ∀ v, RStops std TO_ROMAJI_NODE_TREE ((q ++ v).map Prod.fst) n q.length := by
    intro v
    refine ⟨by simp, ?_, ?_⟩
    · rw [List.map_append, List.take_left' (by simp), h]
    · intro c _
      unfold rfind
      rw [hts]
      cases std.binarySearch _ c <;> simp
  have h0 := rom_hit (up := up) (hs []) (by simpa using hq)
  rw [List.append_nil, List.drop_length, rom_nil, List.append_nil, List.take_length] at h0
  rw [rom_hit (hs v) (by simpa using hq), List.drop_left' rfl, List.take_left' rfl, ← h0]

theorem romU_key {std : Std} (hstd : std.Lawful) {q : List (Char × Bool)} {out : Str} {b : Bool} (up : Bool) (hq : q ≠ [])
    (hv : 'ゔ' ∉ q.map Prod.fst) (h : keyInfo (q.map Prod.fst) = some (out, b)) :
    rom std up q = if q.all Prod.snd && up then out.map aUp else out := by
  unfold keyInfo at h
  obtain ⟨n, hn, e⟩ := Option.map_eq_some_iff.1 h
  cases e
  have hs : RStops std TO_ROMAJI_NODE_TREE (q.map Prod.fst) n q.length := by
    refine ⟨by simp, ?_, by simp⟩
    rw [List.take_of_length_le (by simp), rwalk_eq_mwalk hstd _ hv, hn]
  rw [rom_hit hs (by simpa using hq), List.drop_length, rom_nil, List.append_nil, List.take_length]

theorem romU_sokuonN {std : Std} (hstd : std.Lawful) (up f g : Bool) (v : List (Char × Bool)) :
    rom std up (('っ', f) :: ('ん', g) :: v) = rom std up [('っ', f), ('ん', g)] ++ rom std up v := by
  have h := sokuonN
  unfold keyInfo at h
  obtain ⟨n, hn, e⟩ := Option.map_eq_some_iff.1 h
  rw [Prod.mk.injEq] at e
  refine romU_leaf (q := [('っ', f), ('ん', g)]) (n := n) up (by simp) ?_ (by simpa using e.2) v
  rw [show [('っ', f), ('ん', g)].map Prod.fst = ['っ', 'ん'] from rfl, rwalk_eq_mwalk hstd _ (by decide), hn]

theorem romU_cut_sokuon {std : Std} (hstd : std.Lawful) (up f : Bool) (z v : List (Char × Bool)) :
    rom std up (z ++ ('っ', f) :: v) = rom std up z ++ rom std up (('っ', f) :: v) := by
  apply rom_append_pairT hstd
  intro x y _ hy
  cases hy
  exact pairT_left (y := 'っ') (by decide) (by decide) (Or.inr rfl)

theorem romU_sokuon_one {std : Std} (hstd : std.Lawful) (up f : Bool) (w : List (Char × Bool))
    (hw : ∀ y, w.head? = some y → sokuonNode.rfind std y.1 = none) :
    rom std up (('っ', f) :: w) = rom std up w := by
  have h : RStops std TO_ROMAJI_NODE_TREE ((('っ', f) :: w).map Prod.fst) sokuonNode 1 :=
    rstops_cons (sokuonNode_walk hstd) (n := sokuonNode) (s := _) (k := 0)
      ⟨by simp, rfl, by
        intro d hd
        rw [List.drop_zero, List.head?_map] at hd
        obtain ⟨y, hy, rfl⟩ := Option.map_eq_some_iff.1 hd
        exact hw y hy⟩
  rw [rom_hit h (by decide), sokuonNode_output]
  simp

theorem aUp_fixed {o : Str} (h : o.all (fun c => !decide (97 ≤ c.toNat ∧ c.toNat ≤ 122)) = true) : o.map aUp = o := by
  conv => rhs; rw [← List.map_id o]
  apply List.map_congr_left
  intro c hc
  have := List.all_eq_true.1 h c hc
  apply char_ext
  rw [Bool.not_eq_true', decide_eq_false_iff_not] at this
  rw [aUp_toNat, if_neg this]
  rfl

/-- っ is lost in front of what it does not change, if it does not spoil the capitals -/
theorem romU_sokuon {std : Std} (hstd : std.Lawful) (f : Bool) (w : List (Char × Bool))
    (hw : ∀ y, w.head? = some y → y.1 ∉ Spec.changedBySokuon) (hs : ¬ SpoiledM [('っ', f)] w) :
    rom std true (('っ', f) :: w) = rom std true w := by
  cases w with
  | nil => exact romU_sokuon_one hstd true f [] (by simp)
  | cons y w =>
    rcases sokuon_cases hstd (hw y rfl) with hn | hk
    · apply romU_sokuon_one hstd
      intro y' e; cases e; exact hn
    · obtain ⟨x, hx⟩ : ∃ x, TO_ROMAJI_NODE_TREE.rfind std y.1 = some x := by
        apply root_some hstd
        have hc : (sokuonKept.all romajiKey) = true := by decide +kernel
        exact List.all_eq_true.1 hc _ hk
      have hx' := hx
      rw [← sokuon_rfind hstd hk] at hx'
      have h0 := rlook_stops std (w.map Prod.fst) x
      have h1 : RStops std TO_ROMAJI_NODE_TREE ((y :: w).map Prod.fst) _ _ := rstops_cons hx h0
      have h2 : RStops std TO_ROMAJI_NODE_TREE ((('っ', f) :: y :: w).map Prod.fst) _ _ :=
        rstops_cons (sokuonNode_walk hstd) (rstops_cons hx' h0)
      rw [rom_hit h1 (by omega), rom_hit h2 (by omega), List.drop_succ_cons, List.take_succ_cons (i := _ + 1), List.all_cons]
      congr 1
      cases f with
      | true => rfl
      | false =>
        rw [Bool.false_and, Bool.false_and, if_neg (by simp), Bool.and_true]
        split
        · rename_i hall
          rw [List.take_succ_cons, List.all_cons, Bool.and_eq_true] at hall
          by_cases hu : y.1 ∈ Spec.unchangedBySokuon
          · exfalso
            apply hs
            refine ⟨rfl, y.1, by rw [List.head?_cons, ← hall.1], hu, ?_⟩
            intro hni k hk1 hk2
            rw [List.getElem?_cons_succ] at hk1
            cases w with
            | nil => cases hk1
            | cons k' w =>
              cases hk1
              have hpos : (x.rlook std ((k :: w).map Prod.fst)).2 ≠ 0 := by
                intro e
                have hst := h0.stop k.1 (by rw [e]; rfl)
                have hw0 := h0.walk
                rw [e, List.take_zero] at hw0
                have hw0 : x = _ := Option.some.inj hw0
                rw [← hw0] at hst
                have hc : (Spec.smallKana.all fun s => (TO_ROMAJI_NODE_TREE.mwalk ['に', s]).isSome) = true := by
                  decide +kernel
                have hc := List.all_eq_true.1 hc _ hk2
                have hkv : k.1 ≠ 'ゔ' := by intro e; rw [e] at hk2; revert hk2; decide
                rw [← rwalk_eq_mwalk hstd _ (by simp [Ne.symm hkv]), rwalk, ← hni, hx] at hc
                simp only [rwalk_singleton, hst] at hc
                cases hc
              obtain ⟨j, hj⟩ := Nat.exists_eq_succ_of_ne_zero hpos
              have := hall.2
              rw [hj, List.take_succ_cons, List.all_cons, Bool.and_eq_true] at this
              exact this.1
          · have hc : (TO_ROMAJI_NODE_TREE.paths.all fun q => match q.1 with
                | b :: _ => !sokuonKept.contains b || Spec.unchangedBySokuon.contains b ||
                    q.2.output.all (fun c => !decide (97 ≤ c.toNat ∧ c.toNat ≤ 122))
                | _ => true) = true := by decide +kernel
            have := rwalk_check hstd hc h1.walk
            rw [List.map_cons, List.take_succ_cons] at this
            simp only [List.contains_iff_mem.2 hk, Bool.not_true, Bool.false_or, Bool.or_eq_true, List.contains_iff_mem, hu, false_or] at this
            exact (aUp_fixed this).symm
        · rfl

/-- where two marked hiragana texts meet -/
theorem romU_good {std : Std} (hstd : std.Lawful) {x y : Char} (hxy : VuVowels std x y) {z w : List (Char × Bool)}
    (h : ¬ Spec.MergedKanaV x y (z.map Prod.fst) (w.map Prod.fst)) (hs : ¬ SpoiledM z w) :
    rom std true (z ++ w) = rom std true z ++ rom std true w := by
  by_cases hp : ∀ a b, z.getLast? = some a → w.head? = some b → pairT a.1 b.1 = false
  · exact rom_append_pairT hstd true w z hp
  · simp only [Classical.not_forall] at hp
    obtain ⟨⟨a, f⟩, ⟨b, g⟩, ha, hb, hp⟩ := hp
    rw [Bool.not_eq_false] at hp
    have hal : (z.map Prod.fst).getLast? = some a := by rw [List.getLast?_map, ha]; rfl
    have hbl : (w.map Prod.fst).head? = some b := by rw [List.head?_map, hb]; rfl
    obtain ⟨z, rfl⟩ := List.getLast?_eq_some_iff.1 ha
    obtain ⟨w, rfl⟩ := List.head?_eq_some_iff.1 hb
    unfold pairT at hp
    simp only [Bool.or_eq_true, Bool.and_eq_true, beq_iff_eq, bne_iff_ne, List.contains_iff_mem] at hp
    rcases hp with (⟨rfl, hne⟩ | ⟨rfl, hc⟩) | ⟨hc, hk⟩
    · have hvv : ∀ v, Spec.MergedKana ((z ++ [('っ', f)]).map Prod.fst) v →
          Spec.MergedKanaV x y ((z ++ [('っ', f)]).map Prod.fst) v := fun v hm => ⟨hm, by rw [hal]; simp⟩
      have e0 : rom std true [('っ', f)] = [] := by
        rw [romU_sokuon_one hstd true f [] (by simp), rom_nil]
      rw [List.append_assoc, List.singleton_append, romU_cut_sokuon hstd, romU_cut_sokuon hstd, e0, List.append_nil]
      congr 1
      have hs' : ¬ SpoiledM [('っ', f)] ((b, g) :: w) := by
        rintro ⟨h1, h2⟩
        exact hs ⟨by rw [List.getLast?_concat, ← h1]; rfl, h2⟩
      by_cases hch : b ∈ Spec.changedBySokuon
      · have hbn : b = 'ん' := Classical.byContradiction fun hbn =>
          h (hvv _ ⟨'っ', b, hal, hbl, Or.inl ⟨rfl, hch, fun e => absurd e hbn⟩⟩)
        subst hbn
        have hu : ∀ u, w.head? = some u → u.1 ∉ Spec.afterN := by
          intro u hu hu'
          refine h (hvv _ ⟨'っ', 'ん', hal, hbl, Or.inl ⟨rfl, hch, fun _ => ⟨u.1, hu', ?_⟩⟩⟩)
          rw [List.map_cons, List.getElem?_cons_succ, ← List.head?_eq_getElem?, List.head?_map, hu]
          rfl
        rw [romU_sokuonN hstd]
        have e2 : rom std true (('ん', g) :: w) = rom std true [('ん', g)] ++ rom std true w := by
          apply rom_append_pairT hstd true w [('ん', g)]
          intro x' y' hx' hy'
          cases hx'
          unfold pairT
          have := hu y' hy'
          simp only [Bool.or_eq_false_iff, Bool.and_eq_false_iff, beq_eq_false_iff_ne, ne_eq, List.contains_eq_mem,
            decide_eq_false_iff_not]
          exact ⟨⟨Or.inl (show 'ん' ≠ 'っ' by decide), Or.inr this⟩, Or.inl (show 'ん' ∉ Spec.contractionHeads by decide)⟩
        rw [e2, romU_key hstd (q := [('っ', f), ('ん', g)]) true (by simp) (by simp) sokuonN,
          romU_key hstd (q := [('ん', g)]) true (by simp) (by simp) nAlone]
        congr 1
        cases f <;> cases g <;> try rfl
        exact absurd ⟨rfl, 'ん', rfl, by decide, fun e => absurd e (by decide)⟩ hs'
      · refine romU_sokuon hstd f _ ?_ hs'
        intro y' e; cases e; exact hch
    · have hl : (z.map Prod.fst).getLast? = some 'っ' := by
        apply Classical.byContradiction
        intro hl
        refine h ⟨⟨'ん', b, hal, hbl, Or.inr (Or.inl ⟨rfl, hc, ?_⟩)⟩, by rw [hal]; simp⟩
        rw [List.map_append, List.map_cons, List.map_nil, List.dropLast_concat]
        exact hl
      rw [List.getLast?_map] at hl
      obtain ⟨⟨t, f'⟩, ht, e⟩ := Option.map_eq_some_iff.1 hl
      change t = 'っ' at e
      subst e
      obtain ⟨z, rfl⟩ := List.getLast?_eq_some_iff.1 ht
      rw [List.append_assoc, List.append_assoc, List.append_assoc, List.singleton_append, List.singleton_append, 
        List.singleton_append, romU_cut_sokuon hstd, romU_cut_sokuon hstd, romU_sokuonN hstd, List.append_assoc]
    · have hm : Spec.MergedKana ((z ++ [(a, f)]).map Prod.fst) (((b, g) :: w).map Prod.fst) :=
        ⟨a, b, hal, hbl, Or.inr (Or.inr ⟨hc, hk⟩)⟩
      have hv : a = 'ゔ' := Classical.byContradiction fun hv => h ⟨hm, by rw [hal]; simp [hv]⟩
      subst hv
      have hu : ¬ (if (z.map Prod.fst).getLast? = some 'っ' then y = 'u' else x = 'u') := by
        intro e
        refine h ⟨hm, fun _ => ?_⟩
        rw [List.map_append, List.map_cons, List.map_nil, List.dropLast_concat]
        exact e
      have key : ∀ (z' pre : List (Char × Bool)), z = z' ++ pre → (pre.map Prod.fst = [] ∨ pre.map Prod.fst = ['っ']) →
          (pre.map Prod.fst = ['っ'] ↔ (z.map Prod.fst).getLast? = some 'っ') →
          (∀ v, rom std true (z ++ ('ゔ', f) :: v) = rom std true z' ++ rom std true (pre ++ ('ゔ', f) :: v)) →
          rom std true (z ++ [('ゔ', f)] ++ (b, g) :: w) = rom std true (z ++ [('ゔ', f)]) ++ rom std true ((b, g) :: w) := by
        intro z' pre hz hpre hiff hcut
        have hl := vuVowels_last hxy hpre
        have hu' : (if pre.map Prod.fst = ['っ'] then y else x) ≠ 'u' := by
          by_cases hpp : pre.map Prod.fst = ['っ']
          · rw [if_pos (hiff.1 hpp)] at hu; rw [if_pos hpp]; exact hu
          · rw [if_neg (fun e => hpp (hiff.2 e))] at hu; rw [if_neg hpp]; exact hu
        obtain ⟨n, hn, he⟩ := vu_entry hstd hpre
        rw [romH_walk_end (by simp) hn] at hl
        have hts : n.ts = [] := by
          unfold vuEntry at he
          rw [hl] at he
          split at he
          · rename_i e; exact absurd (Option.some.inj e) hu'
          · simpa using he
          · cases he
        have hleaf := romU_leaf (q := pre ++ [('ゔ', f)]) true (by simp) (by simpa using hn) hts ((b, g) :: w)
        rw [List.append_assoc, List.singleton_append, hcut, hcut, List.append_assoc, ← hleaf]
        simp
      by_cases hl : (z.map Prod.fst).getLast? = some 'っ'
      · rw [List.getLast?_map] at hl
        obtain ⟨⟨t, f'⟩, ht, e⟩ := Option.map_eq_some_iff.1 hl
        change t = 'っ' at e
        subst e
        obtain ⟨z', rfl⟩ := List.getLast?_eq_some_iff.1 ht
        refine key z' [('っ', f')] rfl (Or.inr rfl) (by simp) (fun v => ?_)
        rw [List.append_assoc, List.singleton_append, romU_cut_sokuon hstd]
      · refine key z [] (by simp) (Or.inl rfl) ⟨fun e => absurd e (by simp), fun e => absurd e hl⟩ (fun v => ?_)
        apply rom_append_pairT hstd
        intro x' y' hx' hy'
        cases hy'
        refine pairT_left (y := 'ゔ') (by decide) (by decide) (Or.inl ?_)
        intro e
        apply hl
        rw [List.getLast?_map, hx', Option.map_some, e]

theorem spoiled_head {std : Std} (hstd : std.Lawful) {c : Char} (hc : c ∈ Spec.unchangedBySokuon) (g : Bool)
    (v : List (Char × Bool)) : ∃ d r, rom std true (('っ', false) :: (c, g) :: v) = d :: r ∧ 97 ≤ d.toNat := by
  have hs := rlook_stops std ((('っ', false) :: (c, g) :: v).map Prod.fst) TO_ROMAJI_NODE_TREE
  generalize (TO_ROMAJI_NODE_TREE.rlook std ((('っ', false) :: (c, g) :: v).map Prod.fst)).1 = n at hs
  generalize (TO_ROMAJI_NODE_TREE.rlook std ((('っ', false) :: (c, g) :: v).map Prod.fst)).2 = k at hs
  have hcv : c ≠ 'ゔ' := by rintro rfl; revert hc; decide
  have hex : ∃ m, sokuonNode.rfind std c = some m := by
    have h1 : (Spec.unchangedBySokuon.all fun c => (TO_ROMAJI_NODE_TREE.mwalk ['っ', c]).isSome) = true := by decide +kernel
    have := List.all_eq_true.1 h1 c hc
    rw [← rwalk_eq_mwalk hstd _ (by simp [Ne.symm hcv]), rwalk, sokuonNode_walk hstd] at this
    simp only [rwalk_singleton] at this
    exact Option.isSome_iff_exists.1 this
  obtain ⟨m, hm⟩ := hex
  obtain ⟨j, rfl, hs1⟩ := rstops_uncons (sokuonNode_walk hstd) hs
  obtain ⟨i, rfl, -⟩ := rstops_uncons hm hs1
  have hc2 : (TO_ROMAJI_NODE_TREE.paths.all fun q => match q.1 with
      | 'っ' :: c :: _ => !Spec.unchangedBySokuon.contains c || q.2.output.head?.any fun d => decide (97 ≤ d.toNat)
      | _ => true) = true := by decide +kernel
  have hh := rwalk_check hstd hc2 hs.walk
  simp only [List.map_cons, List.take_succ_cons, List.contains_iff_mem.2 hc, Bool.not_true, Bool.false_or] at hh
  rw [rom_hit hs (by omega), List.take_succ_cons, List.all_cons, Bool.false_and, Bool.false_and, if_neg (by simp)]
  cases ho : n.output with
  | nil => rw [ho] at hh; cases hh
  | cons d r => rw [ho] at hh; exact ⟨d, _, rfl, by simpa using hh⟩

theorem katakana_head {std : Std} (hstd : std.Lawful) {c : Char} (hc : c ∈ Spec.unchangedBySokuon)
    (w : List (Char × Bool)) (hn : c = 'ん' → ∀ u, w.head? = some u → u.1 ∉ Spec.afterN)
    (hk : c = 'に' → ∀ k, w.head? = some k → k.1 ∈ Spec.smallKana → k.2 = true) :
    ∃ d r, rom std true ((c, true) :: w) = d :: r ∧ d.toNat < 97 := by
  have hs := rlook_stops std (((c, true) :: w).map Prod.fst) TO_ROMAJI_NODE_TREE
  generalize (TO_ROMAJI_NODE_TREE.rlook std (((c, true) :: w).map Prod.fst)).1 = n at hs
  generalize (TO_ROMAJI_NODE_TREE.rlook std (((c, true) :: w).map Prod.fst)).2 = k at hs
  have hex : ∃ m, TO_ROMAJI_NODE_TREE.rfind std c = some m := by
    apply root_some hstd
    have h1 : (Spec.unchangedBySokuon.all romajiKey) = true := by decide +kernel
    exact List.all_eq_true.1 h1 c hc
  obtain ⟨m, hm⟩ := hex
  obtain ⟨j, rfl, hs1⟩ := rstops_uncons hm hs
  have hc2 : (TO_ROMAJI_NODE_TREE.paths.all fun q => match q.1 with
      | c :: t => !Spec.unchangedBySokuon.contains c ||
          (q.2.output.head?.any (fun d => decide (97 ≤ d.toNat ∧ d.toNat ≤ 122)) && match t with
            | [] => true
            | [u] => (c == 'ん' && Spec.afterN.contains u) || (c == 'に' && Spec.smallKana.contains u)
            | _ => false)
      | _ => true) = true := by decide +kernel
  have hh := rwalk_check hstd hc2 hs.walk
  rw [List.map_cons, List.take_succ_cons] at hh
  simp only [List.contains_iff_mem.2 hc, Bool.not_true, Bool.false_or, Bool.and_eq_true] at hh
  have hle := hs1.le
  have hall : (((c, true) :: w).take (j + 1)).all Prod.snd = true := by
    rw [List.take_succ_cons, List.all_cons, Bool.true_and]
    have h2 := hh.2
    cases w with
    | nil => simp
    | cons u w =>
      match j with
      | 0 => rfl
      | 1 =>
        simp only [List.map_cons, List.take_succ_cons, List.take_zero, Bool.or_eq_true, Bool.and_eq_true, beq_iff_eq,
          List.contains_iff_mem] at h2
        rcases h2 with ⟨e, h2⟩ | ⟨e, h2⟩
        · exact absurd h2 (hn e u rfl)
        · simp [hk e u rfl h2]
      | j + 2 =>
        cases w with
        | nil => simp at hle
        | cons u' w => simp at h2
  rw [rom_hit hs (by omega), hall, if_pos (by rfl)]
  cases ho : n.output with
  | nil => rw [ho] at hh; cases hh.1
  | cons d r =>
    rw [ho] at hh
    have := hh.1
    simp only [List.head?_cons, Option.any_some, decide_eq_true_iff] at this
    refine ⟨aUp d, _, rfl, ?_⟩
    rw [aUp_toNat, if_pos this]
    omega

theorem romU_bad {std : Std} (hstd : std.Lawful) {x y : Char} (hxy : VuVowels std x y) {z w : List (Char × Bool)}
    (h : Spec.MergedKanaV x y (z.map Prod.fst) (w.map Prod.fst) ∨ SpoiledM z w) (v : List (Char × Bool)) (X : Str) :
    rom std true (z ++ (w ++ v)) ≠ rom std true z ++ (rom std true w ++ X) := by
  by_cases hm : Spec.MergedKanaV x y (z.map Prod.fst) (w.map Prod.fst)
  · intro e
    have e := congrArg (List.map Spec.asciiLower) e
    simp only [List.map_append, rom_lower hstd] at e
    exact romH_badV hstd hxy (mergedKanaV_lower hm) _ _ e
  · obtain ⟨hz, c, hw, hc, hk⟩ := h.resolve_left hm
    obtain ⟨z, rfl⟩ := List.getLast?_eq_some_iff.1 hz
    obtain ⟨w, rfl⟩ := List.head?_eq_some_iff.1 hw
    have e0 : rom std true (z ++ [('っ', false)]) = rom std true z := by
      rw [romU_cut_sokuon hstd, romU_sokuon_one hstd true _ [] (by simp), rom_nil, List.append_nil]
    rw [e0, List.append_assoc, List.singleton_append, romU_cut_sokuon hstd]
    have hnc : 'ん' ∈ Spec.changedBySokuon := by decide +kernel
    intro e
    have e := List.append_cancel_left e
    rw [List.cons_append] at e
    obtain ⟨d, r, e1, hd⟩ := spoiled_head hstd hc true (w ++ v)
    obtain ⟨d', r', e2, hd'⟩ := katakana_head hstd hc w (by
      rintro rfl u hu hu'
      apply hm
      refine ⟨⟨'っ', 'ん', by simp, by simp, Or.inl ⟨rfl, hnc, fun _ => ⟨u.1, hu', ?_⟩⟩⟩, by simp⟩
      rw [List.map_cons, List.getElem?_cons_succ, ← List.head?_eq_getElem?, List.head?_map, hu]
      rfl) (by
      intro e k hk1 hk2
      apply hk e k _ hk2
      rw [List.getElem?_cons_succ, ← List.head?_eq_getElem?]
      exact hk1)
    rw [e1, e2, List.cons_append, List.cons.injEq] at e
    rw [e.1] at hd
    omega

theorem romU_pieces {std : Std} (hstd : std.Lawful) {x y : Char} (hxy : VuVowels std x y) (r : List (List (Char × Bool))) :
    ∀ l : List (List (Char × Bool)),
    (rom std true (l.flatten ++ r.flatten) = rom std true l.flatten ++ (r.map (rom std true)).flatten ↔
      ∀ m p r', r = m ++ p :: r' → ¬ (Spec.MergedKanaV x y ((l.flatten ++ m.flatten).map Prod.fst) (p.map Prod.fst) ∨
        SpoiledM (l.flatten ++ m.flatten) p)) := by
  induction r with
  | nil =>
    intro l
    simp
  | cons p r ih =>
    intro l
    have hl : ∀ m : List (List (Char × Bool)), (l ++ [p]).flatten ++ m.flatten = l.flatten ++ (p :: m).flatten := by
      intro m; simp
    by_cases hm : Spec.MergedKanaV x y (l.flatten.map Prod.fst) (p.map Prod.fst) ∨ SpoiledM l.flatten p
    · constructor
      · intro e
        exfalso
        rw [List.flatten_cons, List.map_cons, List.flatten_cons] at e
        exact romU_bad hstd hxy hm _ _ e
      · intro h
        exact absurd hm (by simpa using h [] p r rfl)
    · have h1 := ih (l ++ [p])
      rw [← hl]
      rw [List.flatten_append, List.flatten_singleton, romU_good hstd hxy (fun e => hm (Or.inl e)) (fun e => hm (Or.inr e)),
        List.append_assoc (rom std true _)] at h1
      rw [List.flatten_append, List.flatten_singleton, List.map_cons, List.flatten_cons, h1]
      constructor
      · intro h m q r' e
        cases m with
        | nil => cases e; simpa using hm
        | cons a m =>
          cases e
          have := h m q r' rfl
          rwa [← List.flatten_singleton (l := p), ← List.flatten_append, hl] at this
      · intro h m q r' e
        have := h (p :: m) q r' (by rw [e]; rfl)
        rwa [← hl, List.flatten_append, List.flatten_singleton] at this

/-! ## Texts -/

theorem flagged_whole {std : Std} (hstd : std.Lawful) {s : Str} (h : Spec.swallowed [] s = 0) :
    (k2hP std true none s).length = s.length := by
  have := k2hP_length hstd true s []
  rw [show k2hPrev none [] = none from rfl] at this
  omega

theorem flagged_parts {std : Std} (hstd : std.Lawful) (ps : List Str)
    (hl : ∀ l p r, ps = l ++ p :: r → r ≠ [] → Spec.swallowed [] p = 0)
    (hk : k2hP std true none ps.flatten = (ps.map (k2hP std true none)).flatten) :
    flagged std ps.flatten = (ps.map (flagged std)).flatten := by
  unfold flagged
  rw [hk]
  clear hk
  induction ps with
  | nil => rfl
  | cons p ps ih =>
    by_cases hps : ps = []
    · subst hps; simp
    · have h0 := flagged_whole hstd (hl [] p ps rfl hps)
      rw [List.map_cons, List.flatten_cons, List.flatten_cons, List.map_append, List.zip_append (by simpa using h0),
        ih (fun l q r e hr => hl (p :: l) q r (by rw [e]; rfl) hr)]
      rfl

/-- the last character of a text no ー of which is lost -/
theorem flagged_last {std : Std} (hstd : std.Lawful) {s : Str} (h : (k2hP std true none s).length = s.length) :
    (flagged std s).getLast? = some ('っ', false) ↔ s.getLast? = some 'っ' := by
  rcases List.eq_nil_or_concat s with rfl | ⟨s, c, rfl⟩
  · simp [flagged, k2hP]
  · rw [List.concat_eq_append] at h ⊢
    have h1 := k2hP_length_le hstd true s prevOk_none
    have h2 := k2hP_length_le hstd true [c] (k2hPrev_ok s prevOk_none)
    rw [k2hP_append, List.length_append, List.length_append] at h
    simp only [List.length_singleton] at h h2
    obtain ⟨d, hd⟩ := List.length_eq_one_iff.1 (show (k2hP std true (k2hPrev none s) [c]).length = 1 by omega)
    unfold flagged
    rw [k2hP_append, hd, List.map_append, List.zip_append (by rw [List.length_map]; omega)]
    rw [show [d].zip ([c].map is_char_katakana) = [(d, is_char_katakana c)] from rfl, List.getLast?_concat,
      List.getLast?_concat, Option.some.injEq, Option.some.injEq, Prod.mk.injEq]
    have hcase : is_char_katakana c = false → d = c := by
      intro hc
      rw [k2hP_cons] at hd
      have hk : isDash c = false := by
        cases hdd : isDash c with
        | false => rfl
        | true =>
          rw [char_ext (isDash_iff.1 hdd) (b := 'ー')] at hc
          exact absurd hc (by decide)
      by_cases hkp : keeps c = true
      · rw [if_pos hkp, List.cons.injEq] at hd; exact hd.1.symm
      · rw [if_neg hkp, hk, if_neg (by simp), hc, if_neg (by simp), List.cons.injEq] at hd; exact hd.1.symm
    constructor
    · rintro ⟨rfl, hc⟩
      exact (hcase hc).symm
    · rintro rfl
      have hc : is_char_katakana 'っ' = false := by decide +kernel
      exact ⟨hcase hc, hc⟩

theorem toHira_ni {c : Char} (h : Spec.Katakana c) : Spec.toHira c = 'に' ↔ c = 'ニ' := by
  constructor
  · intro e
    rw [char_eq_iff, toHira_toNat] at e
    rw [specKatakana_iff] at h
    rw [char_eq_iff]
    simp only [Char.reduceToNat] at e ⊢
    repeat (split at e <;> try omega)
  · rintro rfl; decide

theorem spoiled_form {std : Std} (hstd : std.Lawful) (a p : Str) (h : (k2hP std true none a).length = a.length) :
    SpoiledM (flagged std a) (flagged std p) ↔ Spec.Spoiled a p := by
  unfold SpoiledM Spec.Spoiled
  rw [flagged_last hstd h, flagged_markedV hstd]
  apply and_congr_right
  intro _
  cases p with
  | nil => simp [Spec.markedV, Spec.hiraFromV]
  | cons c p =>
    by_cases hd : c = 'ー'
    · subst hd
      have e : Spec.markAfterV (vuOf std) true [] = ['ー'] := rfl
      constructor
      · rintro ⟨c, hc, hu, -⟩
        rw [Spec.markedV, Spec.hiraFromV, if_pos rfl, e] at hc
        cases hc
        exact absurd hu (by decide +kernel)
      · rintro ⟨c, hc, -, hu, -⟩
        cases hc
        exact absurd hu (by decide +kernel)
    · have hm : Spec.markedV (vuOf std) (c :: p) = (Spec.toHira c, decide (Spec.Katakana c)) ::
          (Spec.hiraFromV (vuOf std) true [c] p).zip (p.map fun c => decide (Spec.Katakana c)) := by
        rw [Spec.markedV, Spec.hiraFromV, if_neg hd]
        rfl
      rw [hm]
      simp only [List.head?_cons, Option.some.injEq, Prod.mk.injEq, List.getElem?_cons_succ]
      have hk : c = 'ニ' → ((∀ k, ((Spec.hiraFromV (vuOf std) true [c] p).zip (p.map fun c => decide (Spec.Katakana c)))[0]? =
          some k → k.1 ∈ Spec.smallKana → k.2 = true) ↔ ∀ k, p[0]? = some k → Spec.toHira k ∈ Spec.smallKana → Spec.Katakana k) := by
        rintro rfl
        cases p with
        | nil => simp
        | cons k p =>
          by_cases hd : k = 'ー'
          · subst hd
            have e : Spec.markAfterV (vuOf std) true ['ニ'] = ['い'] := rfl
            rw [Spec.hiraFromV, if_pos rfl, e]
            constructor
            · intro _ k hk hs
              cases hk
              exact absurd hs (by decide)
            · intro _ k hk hs
              cases hk
              exact absurd hs (by decide)
          · rw [Spec.hiraFromV, if_neg hd]
            simp
      constructor
      · rintro ⟨c', ⟨rfl, hkat⟩, hu, hni⟩
        have hkat := of_decide_eq_true hkat
        exact ⟨c, rfl, hkat, hu, fun e => (hk e).1 (hni ((toHira_ni hkat).2 e))⟩
      · rintro ⟨c', rfl, hkat, hu, hni⟩
        refine ⟨_, ⟨rfl, decide_eq_true hkat⟩, hu, fun e => ?_⟩
        have e := (toHira_ni hkat).1 e
        exact (hk e).2 (hni e)

theorem vuVowels_of_up {std : Std} (hstd : std.Lawful) {o : Options} {x y : Char}
    (h1 : to_romaji_with_opt std "ゔ".toList o = .ok ['v', x])
    (h2 : to_romaji_with_opt std "っゔ".toList o = .ok ['v', 'v', y]) : VuVowels std x y := by
  have hf : flagged std "ゔ".toList = [('ゔ', false)] ∧ flagged std "っゔ".toList = [('っ', false), ('ゔ', false)] := by
    unfold flagged
    rw [(vu_form std).1, (vu_form std).2]
    exact ⟨by decide +kernel, by decide +kernel⟩
  have key : ∀ z : List (Char × Bool), (∀ p ∈ z, p.2 = false) → rom std o.upcase_katakana z = romH std (z.map Prod.fst) := by
    intro z hz
    rw [← rom_romH]
    induction z using rom_ind (std := std) with
    | nil => rw [rom_nil, rom_nil]
    | miss c b z h ih => rw [rom_miss h, rom_miss h, ih fun p hp => hz p (List.mem_cons_of_mem _ hp)]
    | hit z n k hk h ih =>
      rw [rom_hit h hk, rom_hit h hk, ih fun p hp => hz p (List.mem_of_mem_drop hp), Bool.and_false]
      congr 1
      have hne : (z.take k).all Prod.snd = false := by
        cases z with
        | nil => have := h.le; simp at this; omega
        | cons p z =>
          obtain ⟨j, rfl⟩ := Nat.exists_eq_succ_of_ne_zero hk
          rw [List.take_succ_cons, List.all_cons, hz p List.mem_cons_self, Bool.false_and]
      rw [hne, Bool.false_and]
  rw [to_romaji_eq hstd, Except.ok.injEq] at h1 h2
  rw [hf.1, key _ (by simp)] at h1
  rw [hf.2, key _ (by simp)] at h2
  exact ⟨h1, h2⟩

/-! ## C121 -/

/-- **C121** with katakana in capitals: if no ー is lost in the pieces but the last, the romaji of the pieces of a text are
the romaji of the text exactly if no piece is romanized together with the text before it and no hiragana っ before it
spoils the capitals of its first syllable -/
theorem C121_pieces {std : Std} (hstd : std.Lawful) (o : Options) (ho : o.upcase_katakana = true) (x y : Char)
    (h1 : to_romaji_with_opt std "ゔ".toList o = .ok ['v', x])
    (h2 : to_romaji_with_opt std "っゔ".toList o = .ok ['v', 'v', y]) (ps rs : List Str)
    (h : ps.mapM (fun p => to_romaji_with_opt std p o) = .ok rs)
    (hl : ∀ l p r, ps = l ++ p :: r → r ≠ [] → Spec.swallowed [] p = 0) :
    to_romaji_with_opt std ps.flatten o = .ok rs.flatten ↔
      ∀ l p r, ps = l ++ p :: r → ¬ Spec.MergedUp x y l.flatten p := by
  have hxy := vuVowels_of_up hstd h1 h2
  have hr : ∀ s, to_romaji_with_opt std s o = .ok (rom std true (flagged std s)) := by
    intro s
    rw [to_romaji_eq hstd, ho]
  rw [mapM_ok ps hr] at h
  cases h
  rw [hr, Except.ok.injEq]
  by_cases hp : ∀ l p r, ps = l ++ p :: r → ¬ Spec.Prolonged l.flatten p
  · have ek : ∀ l r, ps = l ++ r → k2hP std true none l.flatten = (l.map (k2hP std true none)).flatten := by
      rintro l r rfl
      have := k2hP_parts std l [] (fun m p r' e => by
        have := hp m p (r' ++ r) (by rw [e]; simp)
        simpa using this)
      rwa [List.flatten_nil, List.nil_append, show k2hP std true none [] = [] from rfl, List.nil_append] at this
    have ef : ∀ l r, ps = l ++ r → flagged std l.flatten = (l.map (flagged std)).flatten := by
      intro l r e
      refine flagged_parts hstd l (fun a p b e' hb => ?_) (ek l r e)
      exact hl a p (b ++ r) (by rw [e, e']; simp) (by simp [hb])
    have eh : ∀ l p r, ps = l ++ p :: r → (k2hP std true none l.flatten).length = l.flatten.length := by
      intro l p r e
      rw [ek l _ e, List.length_flatten, List.length_flatten, List.map_map]
      congr 1
      apply List.map_congr_left
      intro q hq
      obtain ⟨a, b, rfl⟩ := List.append_of_mem hq
      exact flagged_whole hstd (hl a q (b ++ p :: r) (by rw [e]; simp) (by simp))
    have hm := romU_pieces hstd hxy (ps.map (flagged std)) []
    rw [List.flatten_nil, List.nil_append, rom_nil, List.nil_append, List.map_map] at hm
    rw [ef ps [] (by simp)]
    have hcrit : ∀ l p r, ps = l ++ p :: r →
        ((Spec.MergedKanaV x y ((l.map (flagged std)).flatten.map Prod.fst) ((flagged std p).map Prod.fst) ∨
          SpoiledM (l.map (flagged std)).flatten (flagged std p)) ↔ Spec.MergedUp x y l.flatten p) := by
      intro l p r e
      rw [← ef l _ e, flagged_fst hstd, flagged_fst hstd, mergedKanaV_form hstd, spoiled_form hstd _ _ (eh l p r e)]
      unfold Spec.MergedUp Spec.MergedV
      simp [hp l p r e]
    refine hm.trans ⟨?_, ?_⟩
    · intro hm l p r e hmer
      refine hm (l.map (flagged std)) (flagged std p) (r.map (flagged std)) (by rw [e]; simp) ?_
      rw [List.nil_append]
      exact (hcrit l p r e).2 hmer
    · intro hm m p r' e hmer
      obtain ⟨l, q, rfl, rfl, e2⟩ := List.map_eq_append_iff.1 e
      obtain ⟨p', r, rfl, rfl, rfl⟩ := List.map_eq_cons_iff.1 e2
      rw [List.nil_append] at hmer
      exact hm l p' r rfl ((hcrit l p' r rfl).1 hmer)
  · constructor
    · intro e
      exfalso
      apply hp
      rintro l p r rfl hpr
      have hlt := marks_pieces_lt hstd l r p hpr
      have e := congrArg (List.countP (· == '-')) e
      rw [rom_dashes hstd, flagged_fst hstd] at e
      have hs : ∀ L : List Str, (L.map fun s => rom std true (flagged std s)).flatten.countP (· == '-') =
          (L.flatMap (k2hP std true none)).countP isMark := by
        intro L
        induction L with
        | nil => rfl
        | cons a L ih =>
          rw [List.map_cons, List.flatten_cons, List.countP_append, ih, rom_dashes hstd, flagged_fst hstd, List.flatMap_cons,
            List.countP_append]
      rw [hs] at e
      omega
    · intro hm
      exact absurd (fun l p r e hpr => hm l p r e (Or.inl (Or.inl hpr))) hp

/-- **C121** for two texts -/
theorem C121_cut {std : Std} (hstd : std.Lawful) (o : Options) (ho : o.upcase_katakana = true) (x y : Char)
    (hx : to_romaji_with_opt std "ゔ".toList o = .ok ['v', x])
    (hy : to_romaji_with_opt std "っゔ".toList o = .ok ['v', 'v', y]) (a b ra rb : Str)
    (h1 : to_romaji_with_opt std a o = .ok ra) (h2 : to_romaji_with_opt std b o = .ok rb)
    (ha : Spec.swallowed [] a = 0) :
    to_romaji_with_opt std (a ++ b) o = .ok (ra ++ rb) ↔ ¬ Spec.MergedUp x y a b := by
  have hnil : ∀ p : Str, ¬ Spec.MergedUp x y [] p := by
    rintro p ((⟨g, h, -⟩ | ⟨⟨x, y, h, -⟩, -⟩) | ⟨h, -⟩) <;> cases h
  have h := C121_pieces hstd o ho x y hx hy [a, b] [ra, rb] (by rw [List.mapM_cons, h1, ok_bind, List.mapM_cons, h2]; rfl) (by
    intro l p r e hr
    match l, e with
    | [], e => cases e; exact ha
    | [x], e => cases e; exact absurd rfl hr
    | x :: y :: l, e => cases l <;> cases e)
  simp only [List.flatten_cons, List.flatten_nil, List.append_nil] at h
  rw [h]
  constructor
  · intro h
    simpa using h [a] b [] rfl
  · intro h l p r e
    match l, e with
    | [], e => exact hnil p
    | [x], e => cases e; simpa using h
    | x :: y :: l, e => cases l <;> cases e

/-- **C121** in particular for the tokens of a text -/
theorem C121_tokens {std : Std} (hstd : std.Lawful) (o : Options) (ho : o.upcase_katakana = true) (x y : Char)
    (hx : to_romaji_with_opt std "ゔ".toList o = .ok ['v', x])
    (hy : to_romaji_with_opt std "っゔ".toList o = .ok ['v', 'v', y]) (s : Str) (compact : Bool)
    (rs : List Str) (h : (tokenize_with_opt s compact).mapM (fun p => to_romaji_with_opt std p o) = .ok rs)
    (hl : ∀ l p r, tokenize_with_opt s compact = l ++ p :: r → r ≠ [] → Spec.swallowed [] p = 0) :
    to_romaji_with_opt std s o = .ok rs.flatten ↔
      ∀ l p r, tokenize_with_opt s compact = l ++ p :: r → ¬ Spec.MergedUp x y l.flatten p := by
  have := C121_pieces hstd o ho x y hx hy _ rs h hl
  rwa [(C45_concat s compact).1] at this

/-- a hiragana っ spoils the capitals of ア, which C98 does not notice -/
example : to_romaji_with_opt modernStd "っア".toList { upcase_katakana := true } = .ok "a".toList ∧
    to_romaji_with_opt modernStd "っ".toList { upcase_katakana := true } = .ok [] ∧
    to_romaji_with_opt modernStd "ア".toList { upcase_katakana := true } = .ok "A".toList ∧
    Spec.swallowed [] "っ".toList = 0 ∧ Spec.Spoiled "っ".toList "ア".toList ∧ ¬ Spec.MergedV 'o' 'o' "っ".toList "ア".toList := by
  refine ⟨by decide +kernel, by decide +kernel, by decide +kernel, by decide, ⟨by decide, 'ア', rfl, ?_, by decide +kernel, by decide⟩, ?_⟩
  · rw [specKatakana_iff]; decide
  · rintro (⟨g, -, -, hm⟩ | ⟨⟨a, b, ha, hb, h⟩, -⟩)
    · revert hm; decide
    · cases (show some 'っ' = some a from ha)
      cases (show some 'あ' = some b from hb)
      rcases h with ⟨-, h, -⟩ | ⟨h, -⟩ | ⟨h, -⟩ <;> revert h <;> decide +kernel

/-- … but not those of カ or of ア after a katakana ッ, and not those of ニ before a small hiragana -/
example : to_romaji_with_opt modernStd "ッア".toList { upcase_katakana := true } = .ok "A".toList ∧
    to_romaji_with_opt modernStd "っニゃ".toList { upcase_katakana := true } = .ok "nya".toList ∧
    to_romaji_with_opt modernStd "ニゃ".toList { upcase_katakana := true } = .ok "nya".toList ∧
    to_romaji_with_opt modernStd "っニャ".toList { upcase_katakana := true } = .ok "nya".toList ∧
    to_romaji_with_opt modernStd "ニャ".toList { upcase_katakana := true } = .ok "NYA".toList := by decide +kernel

/-- a lost ー must be excluded: after it the case is read off the wrong characters -/
example : to_romaji_with_opt modernStd "ンー。さア".toList { upcase_katakana := true } = .ok "N.saa".toList ∧
    to_romaji_with_opt modernStd "ンー。".toList { upcase_katakana := true } = .ok "N.".toList ∧
    to_romaji_with_opt modernStd "さア".toList { upcase_katakana := true } = .ok "saA".toList ∧
    Spec.swallowed [] "ンー。".toList = 1 := by decide +kernel

end WanaKana
