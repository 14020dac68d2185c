import Verif.Model.Utf8Trim
import Verif.Props.Utf8
import Verif.Props.Trim
import Verif.Proofs.ToKana
/-! # C103: trim_okurigana and the order of texts on UTF-8 bytes -/

namespace WanaKana

theorem strChars_utf8 (s : Str) : strChars (utf8 s) = s := C100_decode s

theorem strCollect_utf8 (s : Str) : strCollect s = utf8 s := by
  unfold strCollect utf8
  congr 1
  funext c
  unfold String.utf8EncodeChar
  have hv : c.val.toNat = c.toNat := rfl
  simp only [hv]
  have hc := char_lt c
  by_cases h1 : c.toNat < 0x80
  · rw [if_pos h1, if_pos (show c.toNat ≤ 0x7f by omega)]
  · rw [if_neg h1, if_neg (show ¬ c.toNat ≤ 0x7f by omega)]
    by_cases h2 : c.toNat < 0x800
    · rw [if_pos h2, if_pos (show c.toNat ≤ 0x7ff by omega)]
    · rw [if_neg h2, if_neg (show ¬ c.toNat ≤ 0x7ff by omega)]
      by_cases h3 : c.toNat < 0x10000
      · rw [if_pos h3, if_pos (show c.toNat ≤ 0xffff by omega)]
      · rw [if_neg h3, if_neg (show ¬ c.toNat ≤ 0xffff by omega)]

/-- **C103** the tokens have the bytes of the tokens of the model -/
theorem C103_tokenize (s : Str) (compact : Bool) :
    tokenize_bytes (utf8 s) compact = (tokenize_with_opt s compact).map utf8 := by
  unfold tokenize_bytes tokenize_with_opt
  rw [strChars_utf8, List.map_map]
  apply List.map_congr_left
  intro p _
  exact strCollect_utf8 p.2

theorem toNat_inj {c d : Char} (h : c.toNat = d.toNat) : c = d := by
  rw [← charOfNat_toNat c, h, charOfNat_toNat]

theorem utf8_eq_nil {s : Str} : utf8 s = [] ↔ s = [] := by
  constructor
  · intro h; exact C100_injective s [] h
  · rintro rfl; rfl

/-- **C103** a text begins with another exactly if its bytes begin with the other's bytes -/
theorem C103_prefix (p s : Str) : utf8 p <+: utf8 s ↔ p <+: s := by
  constructor
  · intro h
    induction p generalizing s with
    | nil => exact List.nil_prefix
    | cons c p ih =>
      obtain ⟨r, e⟩ := h
      cases s with
      | nil =>
        have := utf8_eq_nil.1 (List.append_eq_nil_iff.1 e).1
        cases this
      | cons d s =>
        rw [utf8_cons, utf8_cons, List.append_assoc] at e
        have hn := congrArg nextCodePoint e
        rw [next_encode, next_encode] at hn
        simp only [Option.some.injEq, Prod.mk.injEq] at hn
        obtain ⟨hc, hr⟩ := hn
        rw [toNat_inj hc, List.cons_prefix_cons]
        exact ⟨rfl, ih s ⟨r, hr⟩⟩
  · rintro ⟨t, rfl⟩
    rw [utf8_append]
    exact List.prefix_append _ _

/-- **C103** and ends with another exactly if its bytes end with the other's bytes -/
theorem C103_suffix (p s : Str) : utf8 p <:+ utf8 s ↔ p <:+ s := by
  constructor
  · rintro ⟨r, e⟩
    cases p with
    | nil => exact List.nil_suffix
    | cons c p =>
      obtain ⟨x, t, ec, hx, -⟩ := encode_bytes c
      have hb : isCharBoundary (utf8 s) r.length = true := by
        unfold isCharBoundary
        split
        · rfl
        · rw [← e, List.getElem?_append_right (Nat.le_refl _), Nat.sub_self, utf8_cons, ec]
          simpa using hx
      obtain ⟨a, b, rfl, hl⟩ := (C100_boundary s r.length).1 hb
      rw [utf8_append] at e
      have h2 := (List.append_inj e hl.symm).2
      rw [C100_injective _ _ h2]
      exact List.suffix_append _ _
  · rintro ⟨t, rfl⟩
    rw [utf8_append]
    exact List.suffix_append _ _

theorem trimStartBytes (pat : Str) : ∀ (f g : Nat) (s : Str), s.length ≤ f → (utf8 s).length ≤ g →
    trimStartBytesLoop (utf8 pat) g (utf8 s) = utf8 (trimStartLoop pat f s) := by
  intro f
  induction f with
  | zero =>
    intro g s hf hg
    have : s = [] := List.length_eq_zero_iff.1 (by omega)
    subst this
    rw [trimStartLoop]
    cases g with
    | zero => rfl
    | succ g =>
      rw [trimStartBytesLoop, if_neg]
      rintro ⟨h1, h2⟩
      apply h1
      rw [← h2]
      exact List.take_nil
  | succ f ih =>
    intro g s hf hg
    cases g with
    | zero =>
      have : s = [] := utf8_eq_nil.1 (List.length_eq_zero_iff.1 (by omega))
      subst this
      rw [trimStartLoop, if_neg]
      · rfl
      · rintro ⟨h1, h2⟩
        exact h1 (List.prefix_nil.1 h2)
    | succ g =>
      rw [trimStartBytesLoop, trimStartLoop]
      have hiff : (utf8 pat ≠ [] ∧ (utf8 s).take (utf8 pat).length = utf8 pat) ↔ (pat ≠ [] ∧ pat <+: s) := by
        rw [ne_eq, utf8_eq_nil, ← C103_prefix, List.prefix_iff_eq_take]
        exact and_congr_right fun _ => eq_comm
      by_cases h : pat ≠ [] ∧ pat <+: s
      · rw [if_pos (hiff.2 h), if_pos h]
        obtain ⟨hp, t, rfl⟩ := h
        have hpl : 0 < pat.length := List.length_pos_iff.2 hp
        have hpl' : 0 < (utf8 pat).length := List.length_pos_iff.2 fun e => hp (utf8_eq_nil.1 e)
        rw [utf8_append, List.drop_left' rfl, List.drop_left' rfl]
        rw [List.length_append] at hf
        rw [utf8_append, List.length_append] at hg
        exact ih g t (by omega) (by omega)
      · rw [if_neg (fun h' => h (hiff.1 h')), if_neg h]

theorem trimEndBytes (pat : Str) : ∀ (f g : Nat) (s : Str), s.length ≤ f → (utf8 s).length ≤ g →
    trimEndBytesLoop (utf8 pat) g (utf8 s) = utf8 (trimEndLoop pat f s) := by
  intro f
  induction f with
  | zero =>
    intro g s hf hg
    have : s = [] := List.length_eq_zero_iff.1 (by omega)
    subst this
    rw [trimEndLoop]
    cases g with
    | zero => rfl
    | succ g =>
      rw [trimEndBytesLoop, if_neg]
      rintro ⟨h1, h2, -⟩
      exact h1 (List.length_eq_zero_iff.1 (Nat.le_zero.1 h2))
  | succ f ih =>
    intro g s hf hg
    cases g with
    | zero =>
      have : s = [] := utf8_eq_nil.1 (List.length_eq_zero_iff.1 (by omega))
      subst this
      rw [trimEndLoop, if_neg]
      · rfl
      · rintro ⟨h1, h2⟩
        exact h1 (List.suffix_nil.1 h2)
    | succ g =>
      rw [trimEndBytesLoop, trimEndLoop]
      have hiff : (utf8 pat ≠ [] ∧ (utf8 pat).length ≤ (utf8 s).length ∧
          (utf8 s).drop ((utf8 s).length - (utf8 pat).length) = utf8 pat) ↔ (pat ≠ [] ∧ pat <:+ s) := by
        rw [ne_eq, utf8_eq_nil, ← C103_suffix]
        refine and_congr_right fun _ => ⟨fun h => ?_, fun h => ⟨h.length_le, ?_⟩⟩
        · rw [← h.2]
          exact List.drop_suffix _ _
        · obtain ⟨t, e⟩ := h
          rw [← e]
          apply List.drop_left'
          rw [List.length_append]; omega
      by_cases h : pat ≠ [] ∧ pat <:+ s
      · rw [if_pos (hiff.2 h), if_pos h]
        obtain ⟨hp, t, rfl⟩ := h
        have hpl : 0 < pat.length := List.length_pos_iff.2 hp
        have hpl' : 0 < (utf8 pat).length := List.length_pos_iff.2 fun e => hp (utf8_eq_nil.1 e)
        rw [List.length_append] at hf
        rw [utf8_append, List.length_append] at hg
        rw [utf8_append, List.take_left' (by rw [List.length_append]; omega),
          List.take_left' (by rw [List.length_append]; omega)]
        exact ih g t (by omega) (by omega)
      · rw [if_neg (fun h' => h (hiff.1 h')), if_neg h]

/-- **C103** `trim_okurigana` on the bytes of a text does what the model does on its characters -/
theorem C103_trim (s : Str) (trim_from_start : Bool) (m : Option Str) :
    trim_okurigana_bytes (utf8 s) trim_from_start (m.map utf8) =
      (trim_okurigana_with_opt s trim_from_start m).map utf8 := by
  unfold trim_okurigana_bytes trim_okurigana_with_opt
  have hm : (m.map utf8).map strChars = m := by
    cases m with
    | none => rfl
    | some m => rw [Option.map_some, Option.map_some, strChars_utf8]
  have ht : trimTokensBytes (utf8 s) (m.map utf8) = (trimTokens s m).map utf8 := by
    cases m with
    | none => exact C103_tokenize s false
    | some m => exact C103_tokenize m false
  simp only [ht]
  rw [hm, strChars_utf8]
  cases trimGuard s trim_from_start m with
  | error e => rfl
  | ok b =>
    simp only [ok_bind]
    cases b with
    | true => rfl
    | false =>
      simp only [Bool.false_eq_true, if_false, List.isEmpty_map]
      by_cases he : (trimTokens s m).isEmpty = true
      · rw [if_pos he, if_pos he]
        rfl
      · rw [if_neg he, if_neg he]
        cases trim_from_start with
        | true =>
          simp only [if_true, index]
          cases hl : trimTokens s m with
          | nil => rw [hl] at he; exact absurd rfl he
          | cons t r =>
            simp only [List.map_cons, List.getElem?_cons_zero]
            show Except.ok _ = Except.ok _
            rw [trim_start_matches, ← trimStartBytes t s.length _ s (Nat.le_refl _) (Nat.le_refl _)]
        | false =>
          simp only [Bool.false_eq_true, if_false, List.getLast?_map]
          cases hl : (trimTokens s m).getLast? with
          | none => rw [List.getLast?_eq_none_iff.1 hl] at he; exact absurd rfl he
          | some t =>
            simp only [Option.map_some, unwrap]
            show Except.ok _ = Except.ok _
            rw [trim_end_matches, ← trimEndBytes t s.length _ s (Nat.le_refl _) (Nat.le_refl _)]

/-! ## The order of texts -/

theorem bytesLt_cons (a b : UInt8) (x y : List UInt8) :
    bytesLt (a :: x) (b :: y) = true ↔ a.toNat < b.toNat ∨ a.toNat = b.toNat ∧ bytesLt x y = true := by
  rw [bytesLt, Bool.or_eq_true, decide_eq_true_iff, Bool.and_eq_true, beq_iff_eq, UInt8.lt_iff_toNat_lt, UInt8.toNat_inj]

theorem digits4 {n x y z w : Nat} (h : n < 0x110000) (hx : x = n / 262144 % 8 + 0xF0) (hy : y = n / 4096 % 64 + 0x80)
    (hz : z = n / 64 % 64 + 0x80) (hw : w = n % 64 + 0x80) :
    n + (0xF0 * 262144 + 0x80 * 4096 + 0x80 * 64 + 0x80) = x * 262144 + y * 4096 + z * 64 + w ∧
    0x80 ≤ y ∧ y < 0xC0 ∧ 0x80 ≤ z ∧ z < 0xC0 ∧ 0x80 ≤ w ∧ w < 0xC0 := by
  omega

theorem bytesLt_encode (c d : Char) (x y : List UInt8) :
    bytesLt (String.utf8EncodeChar c ++ x) (String.utf8EncodeChar d ++ y) = true ↔
      c.toNat < d.toNat ∨ c.toNat = d.toNat ∧ bytesLt x y = true := by
  have hc := char_lt c
  have hd := char_lt d
  rcases encode_cases c with ⟨h, a1, e, hx⟩ | ⟨h, h', a1, a2, e, hx, hy⟩ | ⟨h, h', a1, a2, a3, e, hx, hy, hz⟩ |
    ⟨h, a1, a2, a3, a4, e, hx, hy, hz, hw⟩ <;>
  rcases encode_cases d with ⟨k, b1, f, kx⟩ | ⟨k, k', b1, b2, f, kx, ky⟩ | ⟨k, k', b1, b2, b3, f, kx, ky, kz⟩ |
    ⟨k, b1, b2, b3, b4, f, kx, ky, kz, kw⟩ <;>
  rw [e, f] <;>
  simp only [List.cons_append, List.nil_append, bytesLt_cons]
  case inr.inr.inr.inr.inr.inr =>
    have h1 := digits4 hc hx hy hz hw
    have h2 := digits4 hd kx ky kz kw
    clear hx hy hz hw kx ky kz kw
    by_cases hP : bytesLt x y = true
    · simp only [hP, and_true]; omega
    · simp only [hP, and_false, or_false, Bool.false_eq_true]; omega
  all_goals
    by_cases hP : bytesLt x y = true
    · simp only [hP, and_true]; omega
    · simp only [hP, and_false, or_false, Bool.false_eq_true]; omega

/-- **C103** comparing texts by their bytes is comparing them by their characters -/
theorem C103_order (s t : Str) : bytesLt (utf8 s) (utf8 t) = Upstream.strLt s t := by
  induction s generalizing t with
  | nil =>
    cases t with
    | nil => rfl
    | cons d t =>
      obtain ⟨x, r, e, -⟩ := encode_bytes d
      rw [utf8_cons, e]
      rfl
  | cons c s ih =>
    cases t with
    | nil =>
      obtain ⟨x, r, e, -⟩ := encode_bytes c
      rw [utf8_cons, e]
      rfl
    | cons d t =>
      rw [Bool.eq_iff_iff, utf8_cons, utf8_cons, bytesLt_encode, ih, Upstream.strLt, Bool.or_eq_true, decide_eq_true_iff,
        Bool.and_eq_true, beq_iff_eq]
      constructor
      · rintro (h | ⟨h, h'⟩)
        · exact Or.inl h
        · exact Or.inr ⟨toNat_inj h, h'⟩
      · rintro (h | ⟨h, h'⟩)
        · exact Or.inl h
        · exact Or.inr ⟨by rw [h], h'⟩

/-- 踏み込む loses its last syllable, three bytes -/
example : trim_okurigana_bytes (utf8 ['踏', 'み', '込', 'む']) false none =
      .ok [0xE8, 0xB8, 0x8F, 0xE3, 0x81, 0xBF, 0xE8, 0xBE, 0xBC] ∧
    trim_okurigana_bytes (utf8 ['お', 'は', 'ら']) true (some (utf8 ['お', '腹'])) = .ok (utf8 ['は', 'ら']) ∧
    bytesLt (utf8 ['z']) (utf8 ['あ']) = true ∧ bytesLt (utf8 ['ー']) (utf8 ['𠮷']) = true := by decide

end WanaKana
