import Verif.Model.Cli
import Verif.Props.ToRomaji
import Verif.Props.ToKana2

/-! # C55: the command line tools -/

namespace WanaKana

/-- Specification: words separated by single spaces -/
def Spec.spaced (args : List Str) : Str := (args.intersperse [' ']).flatten

theorem joinSpace_eq (args : List Str) : joinSpace args = Spec.spaced args := by
  unfold Spec.spaced
  induction args with
  | nil => rfl
  | cons a args ih =>
    cases args with
    | nil => simp [joinSpace]
    | cons b args =>
      rw [joinSpace, ih]
      simp [List.intersperse]

theorem envArgs_ok (args : List Str) : envArgs (args.map some) = .ok args := by
  induction args with
  | nil => rfl
  | cons a args ih => rw [List.map_cons, envArgs, ih]; rfl

theorem cli_args (convert : Str → Res Str) (name : Str) (args : List Str) (stdin : Option Str) (r : Str)
    (h : Spec.spaced args ≠ []) (hc : convert (Spec.spaced args) = .ok r) :
    cliMain convert ((name :: args).map some) stdin = .ok (r ++ ['\n']) := by
  unfold cliMain
  rw [envArgs_ok, ok_bind]
  simp only [List.drop_succ_cons, List.drop_zero, joinSpace_eq]
  rw [if_pos (by cases hs : Spec.spaced args <;> simp_all), hc, ok_bind]

theorem cli_stdin (convert : Str → Res Str) (name : Str) (args : List Str) (input : Str)
    (h : Spec.spaced args = []) (hc : convert [] = .ok []) :
    cliMain convert ((name :: args).map some) (some input) = convert input := by
  unfold cliMain
  rw [envArgs_ok, ok_bind]
  simp only [List.drop_succ_cons, List.drop_zero, joinSpace_eq, h]
  cases input with
  | nil => simp [unwrap, hc]; rfl
  | cons c input => simp [unwrap]; rfl

/-- **C55** with arguments: the conversion of the arguments joined by single spaces, and a newline; standard input is
not read (it may be anything, even unreadable). -/
theorem C55_to_kana_args {std : Std} (hstd : std.Lawful) (name : Str) (args : List Str) (stdin : Option Str)
    (h : Spec.spaced args ≠ []) :
    ∃ r, to_kana std (Spec.spaced args) = .ok r ∧ toKanaMain std ((name :: args).map some) stdin = .ok (r ++ ['\n']) := by
  obtain ⟨r, hr⟩ : ∃ r, to_kana std (Spec.spaced args) = .ok r := ⟨_, to_kana_eq hstd _ _⟩
  exact ⟨r, hr, cli_args _ name args stdin r h hr⟩

theorem C55_to_romaji_args {std : Std} (hstd : std.Lawful) (name : Str) (args : List Str) (stdin : Option Str)
    (h : Spec.spaced args ≠ []) :
    ∃ r, to_romaji std (Spec.spaced args) = .ok r ∧
      toRomajiMain std ((name :: args).map some) stdin = .ok (r ++ ['\n']) := by
  obtain ⟨r, hr⟩ : ∃ r, to_romaji std (Spec.spaced args) = .ok r := C27_total hstd _ _
  exact ⟨r, hr, cli_args _ name args stdin r h hr⟩

/-- **C55** without arguments, or with a single empty one: the conversion of standard input, nothing added. -/
theorem C55_to_kana_stdin {std : Std} (hstd : std.Lawful) (name : Str) (args : List Str) (input : Str)
    (h : args = [] ∨ args = [[]]) :
    ∃ r, to_kana std input = .ok r ∧ toKanaMain std ((name :: args).map some) (some input) = .ok r := by
  obtain ⟨r, hr⟩ : ∃ r, to_kana std input = .ok r := ⟨_, to_kana_eq hstd _ _⟩
  refine ⟨r, hr, ?_⟩
  rw [← hr]
  refine cli_stdin _ name args input (by rcases h with rfl | rfl <;> rfl) ?_
  rw [to_kana, to_kana_eq hstd, kana, scan]

theorem C55_to_romaji_stdin {std : Std} (hstd : std.Lawful) (name : Str) (args : List Str) (input : Str)
    (h : args = [] ∨ args = [[]]) :
    ∃ r, to_romaji std input = .ok r ∧ toRomajiMain std ((name :: args).map some) (some input) = .ok r := by
  obtain ⟨r, hr⟩ : ∃ r, to_romaji std input = .ok r := C27_total hstd _ _
  refine ⟨r, hr, ?_⟩
  rw [← hr]
  refine cli_stdin _ name args input (by rcases h with rfl | rfl <;> rfl) ?_
  obtain ⟨t, ht⟩ : ∃ t, to_romaji std [] = .ok t := C27_total hstd _ _
  have := C37_length hstd [] t {} ht
  rw [ht, List.eq_nil_of_length_eq_zero (Nat.le_zero.1 this)]

/-- **C55** the two cases are exhaustive: the joined arguments are empty exactly when there are none or one empty
one. -/
theorem C55_cases (args : List Str) : Spec.spaced args = [] ↔ args = [] ∨ args = [[]] := by
  rw [← joinSpace_eq]
  match args with
  | [] => simp [joinSpace]
  | [a] => simp [joinSpace]
  | a :: b :: rest => simp [joinSpace]

/-- **C55** joining adds exactly one character between two arguments. -/
theorem C55_joined_length (args : List Str) :
    (Spec.spaced args).length = (args.map List.length).sum + (args.length - 1) := by
  rw [← joinSpace_eq]
  induction args with
  | nil => rfl
  | cons a args ih =>
    cases args with
    | nil => simp [joinSpace]
    | cons b args =>
      rw [joinSpace]
      simp only [List.length_append, List.length_cons, ih, List.map_cons, List.sum_cons, List.length_nil]
      omega

example : toKanaMain modernStd [some "to_kana".toList, some "hai".toList, some "IIE".toList] none =
    .ok "はい イイエ\n".toList := by decide +kernel
example : toRomajiMain modernStd [some "to_romaji".toList] (some "はい".toList) = .ok "hai".toList := by decide +kernel

end WanaKana
