import Verif.Props.DebugPrint
import Verif.Spec.SourceTrees
/-! # Reading the lines of the tree literals, for C120 -/

namespace WanaKana.C120
open WanaKana Spec C119

/-! ## Reading line by line -/

/-- the tokens of a line that begins and ends between tokens -/
def lineTokens (s : String) : Option (List Tok) :=
  match run .out s.toList with
  | some (t, .out) => some t
  | _ => none

def allTokens : List String → Option (List Tok)
  | [] => some []
  | s :: rest =>
    match lineTokens s with
    | some t => (allTokens rest).map (t ++ ·)
    | none => none

theorem reads_line {s : String} {t : List Tok} (h : lineTokens s = some t) :
    Reads .out (s.toList ++ ['\n']) t .out := by
  unfold lineTokens at h
  split at h
  next t' e =>
    obtain rfl := Option.some.inj h
    have := (reads_run e).trans (reads_step (c := '\n') (t := []) rfl)
    rwa [List.append_nil] at this
  next => cases h

theorem reads_lines {l : List String} : ∀ {t : List Tok}, allTokens l = some t →
    Reads .out (linesText l) t .out := by
  induction l with
  | nil =>
    intro t h
    obtain rfl := Option.some.inj h
    exact reads_nil _
  | cons s l ih =>
    intro t h
    unfold allTokens at h
    split at h
    next t' e =>
      obtain ⟨t2, h2, rfl⟩ := Option.map_eq_some_iff.1 h
      exact (reads_line e).trans (ih h2)
    next => cases h

/-! ## Commas -/

theorem withoutTrailing_append (a : List Tok) : ∀ (x : List Tok),
    (∀ t, x.head? = some t → isClosing t = false) →
    withoutTrailing (a ++ x) = withoutTrailing a ++ withoutTrailing x := by
  induction a with
  | nil => intro x _; rfl
  | cons t a ih =>
    intro x hx
    cases a with
    | nil =>
      cases x with
      | nil => rfl
      | cons t' x =>
        have : isClosing t' = false := hx t' rfl
        simp [withoutTrailing, this]
    | cons t' a =>
      have := ih x hx
      simp only [List.cons_append] at this ⊢
      simp only [withoutTrailing, this]
      split
      · rfl
      · rfl

/-- one root transition: the text of its lines, the comma at the end taken off -/
def rootTokens (l : List String) : Option (List Tok) :=
  match allTokens l with
  | some t => if t.getLast? = some (.punct ',') then some (withoutTrailing t.dropLast) else none
  | none => none

theorem rootTokens_spec {l : List String} {t : List Tok} (h : rootTokens l = some t) :
    ∃ b, Reads .out (linesText l) (b ++ [.punct ',']) .out ∧ withoutTrailing b = t := by
  unfold rootTokens at h
  split at h
  next t' e =>
    split at h
    next hl =>
      refine ⟨t'.dropLast, ?_, Option.some.inj h⟩
      have hne : t' ≠ [] := by intro e; simp [e] at hl
      have : t'.dropLast ++ [.punct ','] = t' := by
        have h1 := List.dropLast_concat_getLast hne
        rw [List.getLast?_eq_some_getLast hne] at hl
        rw [Option.some.inj hl] at h1
        exact h1
      rw [this]
      exact reads_lines e
    next => cases h
  next => cases h

/-- nothing closes at the beginning of a transition -/
def opens : List Tok → Bool
  | [] => false
  | t :: _ => !isClosing t

theorem withoutTrailing_head {a : List Tok} (h : opens (withoutTrailing a) = true) : opens a = true := by
  match a with
  | [] => simp [withoutTrailing, opens] at h
  | [t] => exact h
  | t :: t' :: rest =>
    simp only [withoutTrailing] at h
    split at h
    next e =>
      simp only [Bool.and_eq_true, decide_eq_true_eq] at e
      rw [e.1]
      rfl
    next => exact h

/-- the texts of all root transitions, read one after the other -/
theorem roots_spec : ∀ (texts : List (List String)) (toks : List (List Tok)),
    texts.map rootTokens = toks.map some → (∀ t ∈ toks, opens t = true) →
    ∃ b, Reads .out (linesText texts.flatten) b .out ∧
      (b = [] ↔ toks = []) ∧ (∀ t, b.head? = some t → isClosing t = false) ∧
      ∀ c x, isClosing c = true → withoutTrailing (b ++ c :: x) = commaSeparated toks ++ withoutTrailing (c :: x)
  | [], [], _, _ => ⟨[], reads_nil _, by simp, fun t h => (by cases h), fun c x _ => rfl⟩
  | [], _ :: _, h, _ => by simp at h
  | _ :: _, [], h, _ => by simp at h
  | l :: texts, t :: toks, h, ho => by
    simp only [List.map_cons, List.cons.injEq] at h
    obtain ⟨b1, hr1, hb1⟩ := rootTokens_spec h.1
    obtain ⟨b2, hr2, hne, hh, hw⟩ := roots_spec texts toks h.2 (fun t ht => ho t (List.mem_cons_of_mem _ ht))
    have hop : opens b1 = true := withoutTrailing_head (by rw [hb1]; exact ho t (List.mem_cons_self ..))
    refine ⟨b1 ++ [.punct ','] ++ b2, ?_, ?_, ?_, ?_⟩
    · have : linesText (l :: texts).flatten = linesText l ++ linesText texts.flatten := by
        simp [linesText]
      rw [this]
      exact hr1.trans hr2
    · simp
    · intro t' ht'
      cases b1 with
      | nil => simp [opens] at hop
      | cons t1 b1 =>
        obtain rfl := Option.some.inj ht'
        simpa [opens] using hop
    · intro c x hc
      rw [List.append_assoc, List.append_assoc,
        withoutTrailing_append b1 _ (by intro t' ht'; obtain rfl := Option.some.inj ht'; rfl), hb1]
      cases toks with
      | nil =>
        obtain rfl : b2 = [] := hne.2 rfl
        simp [withoutTrailing, hc, commaSeparated]
      | cons t' toks =>
        have hb2 : b2 ≠ [] := fun e => by simpa using hne.1 e
        rw [withoutTrailing_append [.punct ','] (b2 ++ c :: x) (by
          intro t2 ht2
          cases b2 with
          | nil => exact absurd rfl hb2
          | cons t3 b2 => exact hh t2 ht2), hw c x hc, commaSeparated]
        simp [withoutTrailing]

/-! ## Lines as characters

The kernel knows that a string literal is `String.ofList` of its characters; taking a literal
apart with `String.toList` would be slow. -/

/-- the characters of the lines -/
inductive LinesAre : List String → List Str → Prop
  | nil : LinesAre [] []
  | cons {l : List String} {cs : List Str} (c : Str) (h : LinesAre l cs) : LinesAre (String.ofList c :: l) (c :: cs)

theorem LinesAre.eq {l : List String} {cs : List Str} (h : LinesAre l cs) : l.map String.toList = cs := by
  induction h with
  | nil => rfl
  | cons c h ih => rw [List.map_cons, ih, String.toList_ofList]

def strTokens (s : Str) : Option (List Tok) :=
  match run .out s with
  | some (t, .out) => some t
  | _ => none

def allStr : List Str → Option (List Tok)
  | [] => some []
  | s :: rest =>
    match strTokens s with
    | some t => (allStr rest).map (t ++ ·)
    | none => none

theorem allTokens_eq (l : List String) : allTokens l = allStr (l.map String.toList) := by
  induction l with
  | nil => rfl
  | cons s l ih =>
    simp only [allTokens, List.map_cons, allStr, ih]
    rfl

def rootStr (l : List Str) : Option (List Tok) :=
  match allStr l with
  | some t => if t.getLast? = some (.punct ',') then some (withoutTrailing t.dropLast) else none
  | none => none

theorem root_of {l : List String} {cs : List Str} (h : LinesAre l cs) {t : List Tok} (ht : rootStr cs = some t) :
    rootTokens l = some t := by
  rw [← h.eq] at ht
  simp only [rootTokens, allTokens_eq]
  exact ht

/-- read the lines of a root transition -/
macro "read_root" t:ident : tactic => `(tactic| (
  apply root_of
  · dsimp only [$t:ident]
    repeat (first | exact LinesAre.nil | apply LinesAre.cons)
  · decide +kernel))

theorem kSource_map : ∀ t : List (Char × KNode), kSource t = t.map fun x => kPairSource x.1 x.2
  | [] => by rw [kSource]; rfl
  | (c, n) :: t => by rw [kSource, kSource_map t]; rfl

theorem rSource_map : ∀ t : List (Char × RNode), rSource t = t.map fun x => rPairSource x.1 x.2
  | [] => by rw [rSource]; rfl
  | (c, n) :: t => by rw [rSource, rSource_map t]; rfl

end WanaKana.C120
