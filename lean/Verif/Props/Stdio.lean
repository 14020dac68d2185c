import Verif.Spec.Stdio
import Verif.Proofs.Stdio
import Verif.Props.Utf8Cli
/-! # C113: the command line tools and the operating system -/

namespace WanaKana

theorem isWrote_eq : Spec.isWrote = takes := by
  funext a
  cases a <;> rfl

/-- the end of a process whose buffer holds no line feed -/
theorem cleanup_writes {w : List UInt8} {writes : List WriteAnswer} {status : Nat} {o : Out}
    (hs : status = 0 ∨ status = 101)
    (hp : o.sent ++ o.buf <+: w) (ha : o.answers <:+ writes)
    (h0 : status = 0 → o.sent ++ o.buf = w ∧ (0x0A : UInt8) ∉ o.buf ∧ ∀ l, l <:+ o.buf → l.length < 1024)
    (h1 : status = 101 → ∃ a ∈ writes, Bad a)
    (hl : (∀ a ∈ writes, ¬ Bad a) → writes.countP takes ≤ o.answers.countP takes + o.sent.length) :
    Spec.Writes w writes (cleanup false status o).1 (cleanup false status o).2.sent := by
  have hf := op_flush o
  have hsent : (flushBuf false o).2.sent <+: w := (List.prefix_append _ _).trans (hf.part.trans hp)
  have hsplit : (flushBuf false o).2.sent ++ (flushBuf false o).2.buf = o.sent ++ o.buf := by
    have := (writeLoop_loop o.answers o.buf).split
    unfold flushBuf
    simp only [Bool.false_eq_true, if_false]
    rw [List.append_assoc, this]
  have hsuf : (flushBuf false o).2.buf <:+ o.buf := by
    refine ⟨(writeLoop o.answers o.buf).2.2.1, ?_⟩
    have := (writeLoop_loop o.answers o.buf).split
    unfold flushBuf
    simp only [Bool.false_eq_true, if_false]
    exact this
  generalize hr : flushBuf false o = r at *
  obtain ⟨e, o'⟩ := r
  have hbad : e = .error → ∃ a ∈ writes, Bad a := fun he => by
    obtain ⟨a, h, hb⟩ := hf.bad he
    exact ⟨a, ha.subset h, hb⟩
  have hlive : (∀ a ∈ writes, ¬ Bad a) → writes.countP takes ≤ o'.answers.countP takes + o'.sent.length := fun h => by
    have h2 := hl h
    have h3 := hf.live fun a hm => h a (ha.subset hm)
    dsimp only at h3
    omega
  have hex : ∀ hne : e ≠ .waiting, Spec.Writes w writes (.exited status) o'.sent := by
    intro hne
    refine ⟨hsent, ?_, nofun, ?_, ?_, ?_⟩
    · rcases hs with rfl | rfl <;> simp
    · intro hst
      have hst : status = 0 := by injection hst
      obtain ⟨hw, hn, hlen⟩ := h0 hst
      refine ⟨o'.buf, hsplit.trans hw, fun h => hn (hsuf.subset h), hlen _ hsuf, fun hb => ?_⟩
      cases e with
      | done => exact absurd (by rw [show o' = (IoEnd.done, o').2 from rfl]; exact flush_done hr) hb
      | error => exact hbad rfl
      | waiting => exact absurd rfl hne
    · intro hst
      exact h1 (by injection hst)
    · intro hno hlen
      have hst : status = 0 := by
        rcases hs with h | h
        · exact h
        · obtain ⟨a, hm, hb⟩ := h1 h
          exact absurd hb (hno a hm)
      cases e with
      | done =>
        refine ⟨by rw [hst], ?_⟩
        have := hsplit
        dsimp only at this
        rw [flush_done hr, List.append_nil] at this
        rw [this]
        exact (h0 hst).1
      | error =>
        obtain ⟨a, hm, hb⟩ := hbad rfl
        exact absurd hb (hno a hm)
      | waiting => exact absurd rfl hne
  unfold cleanup
  rw [hr]
  cases e with
  | done => exact hex (by simp)
  | error => exact hex (by simp)
  | waiting =>
    obtain ⟨hw1, hw2⟩ := hf.wait rfl
    dsimp only at hw1 hw2
    have hlt : o'.sent.length < w.length := Nat.lt_of_lt_of_le hw2 hp.length_le
    refine ⟨hsent, Or.inl rfl, fun _ => hlt, nofun, nofun, ?_⟩
    intro hno hlen
    have := hlive hno
    rw [hw1, List.countP_nil] at this
    rw [isWrote_eq] at hlen
    omega

/-- printing and ending, with standard output open -/
theorem printAndExit_writes (writes : List WriteAnswer) (pieces : List (List UInt8))
    (hlen : ∀ o, printPieces stdoutCap false ⟨writes, [], []⟩ pieces = (.done, o) → o.buf.length < stdoutCap) :
    Spec.Writes pieces.flatten writes (printAndExit stdoutCap false ⟨writes, [], []⟩ pieces).1
      (printAndExit stdoutCap false ⟨writes, [], []⟩ pieces).2.sent := by
  have h := op_print stdoutCap pieces ⟨writes, [], []⟩
  rw [show (⟨writes, [], []⟩ : Out).sent ++ (⟨writes, [], []⟩ : Out).buf ++ pieces.flatten = pieces.flatten from rfl] at h
  have hb : ∀ o, printPieces stdoutCap false ⟨writes, [], []⟩ pieces = (.done, o) → (0x0A : UInt8) ∉ o.buf :=
    fun o ho => (print_buf ho (by simp) (by simp)).1
  unfold printAndExit
  generalize printPieces stdoutCap false ⟨writes, [], []⟩ pieces = r at *
  obtain ⟨e, o⟩ := r
  have hl : (∀ a ∈ writes, ¬ Bad a) → writes.countP takes ≤ o.answers.countP takes + o.sent.length := fun hno => by
    simpa using h.live hno
  cases e with
  | done =>
    refine cleanup_writes (Or.inl rfl) h.part h.answers ?_ (by simp) hl
    intro _
    exact ⟨h.whole rfl, hb o rfl, fun l hs => Nat.lt_of_le_of_lt hs.length_le (hlen o rfl)⟩
  | error => exact cleanup_writes (Or.inr rfl) h.part h.answers (by simp) (fun _ => h.bad rfl) hl
  | waiting =>
    obtain ⟨h1, h2⟩ := h.wait rfl
    refine ⟨(List.prefix_append _ _).trans h.part, Or.inl rfl, fun _ => h2, nofun, nofun, ?_⟩
    intro hno hlen'
    have := hl hno
    rw [show o.answers = [] from h1, List.countP_nil] at this
    rw [isWrote_eq] at hlen'
    have h2 : o.sent.length < pieces.flatten.length := h2
    omega

theorem print_writes (writes : List WriteAnswer) (r : List UInt8) :
    Spec.Writes r writes (printAndExit stdoutCap false ⟨writes, [], []⟩ [r]).1
      (printAndExit stdoutCap false ⟨writes, [], []⟩ [r]).2.sent := by
  have := printAndExit_writes writes [r] fun o ho => by
    rw [printPieces] at ho
    obtain ⟨o1, h1, h2⟩ := andThen_done ho
    rw [printPieces] at h2
    cases h2
    rcases (line_buf h1 (by simp) (by simp)).2.2 rfl with h | h
    · exact h
    · rw [h]; decide
  simpa using this

theorem println_writes (writes : List WriteAnswer) (r : List UInt8) :
    Spec.Writes (r ++ [0x0A]) writes (printAndExit stdoutCap false ⟨writes, [], []⟩ [r, [0x0A]]).1
      (printAndExit stdoutCap false ⟨writes, [], []⟩ [r, [0x0A]]).2.sent := by
  have := printAndExit_writes writes [r, [0x0A]] fun o ho => by
    have hw := (op_print stdoutCap [r, [0x0A]] ⟨writes, [], []⟩).whole (by rw [ho])
    have hb := (print_buf ho (by simp) (by simp)).1
    rw [ho] at hw
    have hw : o.sent ++ o.buf = r ++ [0x0A] := by simpa using hw
    rcases List.eq_nil_or_concat o.buf with h | ⟨l, b, h⟩
    · rw [h]; decide
    · rw [h, List.concat_eq_append, ← List.append_assoc] at hw
      have := (List.append_inj' hw rfl).2
      rw [List.concat_eq_append] at h
      exact absurd (by rw [h]; simp [List.cons.inj this]) hb
  simpa using this

/-! ## Standard output closed -/

theorem andThen_closed {r : IoEnd × Out} {k : Out → IoEnd × Out} (h1 : r.1 = .done ∧ r.2.sent = [])
    (hk : ∀ o, o.sent = [] → (k o).1 = .done ∧ (k o).2.sent = []) :
    (andThen r k).1 = .done ∧ (andThen r k).2.sent = [] := by
  obtain ⟨e, o⟩ := r
  cases h1.1
  exact hk o h1.2

theorem bufWrite_closed (cap : Nat) (o : Out) (bs : List UInt8) (h : o.sent = []) :
    (bufWriteAll cap true o bs).1 = .done ∧ (bufWriteAll cap true o bs).2.sent = [] := by
  unfold bufWriteAll
  split
  · exact ⟨rfl, h⟩
  · refine andThen_closed ?_ fun o h => ?_
    · split <;> exact ⟨rfl, h⟩
    · split <;> exact ⟨rfl, h⟩

theorem line_closed (cap : Nat) (o : Out) (bs : List UInt8) (h : o.sent = []) :
    (lineWriteAll cap true o bs).1 = .done ∧ (lineWriteAll cap true o bs).2.sent = [] := by
  unfold lineWriteAll
  split
  · refine andThen_closed ?_ fun o h => bufWrite_closed cap o bs h
    unfold flushIfCompletedLine
    split <;> exact ⟨rfl, h⟩
  · refine andThen_closed ?_ fun o h => bufWrite_closed cap o _ h
    split
    · exact ⟨rfl, h⟩
    · exact andThen_closed (bufWrite_closed cap o _ h) fun o h => ⟨rfl, h⟩

theorem print_closed (cap : Nat) : ∀ (ps : List (List UInt8)) (o : Out), o.sent = [] →
    (printPieces cap true o ps).1 = .done ∧ (printPieces cap true o ps).2.sent = []
  | [], _, h => ⟨rfl, h⟩
  | p :: ps, o, h => andThen_closed (line_closed cap o p h) fun o h => print_closed cap ps o h

theorem printAndExit_closed (cap : Nat) (ps : List (List UInt8)) (writes : List WriteAnswer) :
    (printAndExit cap true ⟨writes, [], []⟩ ps).1 = .exited 0 ∧ (printAndExit cap true ⟨writes, [], []⟩ ps).2.sent = [] := by
  have h := print_closed cap ps ⟨writes, [], []⟩ rfl
  unfold printAndExit
  generalize printPieces cap true ⟨writes, [], []⟩ ps = r at *
  obtain ⟨e, o⟩ := r
  cases h.1
  exact ⟨rfl, h.2⟩

/-! ## Standard input -/

theorem readToEnd_done : ∀ {before after : List ReadAnswer} (buf : List UInt8), (∀ a ∈ before, Spec.Bringing a) →
    readToEnd (before ++ .got [] :: after) buf = (.done, buf ++ (before.map Spec.brought).flatten)
  | [], after, buf, _ => by simp [readToEnd]
  | a :: before, after, buf, h => by
    have ih := fun buf => readToEnd_done (before := before) (after := after) buf fun a ha => h a (by simp [ha])
    rcases h a (by simp) with rfl | ⟨b, bs, rfl⟩
    · rw [List.cons_append, readToEnd, ih]
      simp [Spec.brought]
    · rw [List.cons_append, readToEnd, if_neg (by simp), ih]
      simp [Spec.brought, List.append_assoc]

theorem readToEnd_cases (reads : List ReadAnswer) (buf : List UInt8) :
    (∃ before after, reads = before ++ .got [] :: after ∧ (∀ a ∈ before, Spec.Bringing a) ∧
      readToEnd reads buf = (.done, buf ++ (before.map Spec.brought).flatten)) ∨
    (∃ bs, readToEnd reads buf = (.error, bs)) ∨
    ((∀ a ∈ reads, Spec.Bringing a) ∧ ∃ bs, readToEnd reads buf = (.waiting, bs)) := by
  induction reads generalizing buf with
  | nil => exact Or.inr (Or.inr ⟨by simp, buf, rfl⟩)
  | cons a reads ih =>
    have step : Spec.Bringing a → readToEnd (a :: reads) buf = readToEnd reads (buf ++ Spec.brought a) →
        (∃ before after, a :: reads = before ++ .got [] :: after ∧ (∀ a ∈ before, Spec.Bringing a) ∧
          readToEnd (a :: reads) buf = (.done, buf ++ (before.map Spec.brought).flatten)) ∨
        (∃ bs, readToEnd (a :: reads) buf = (.error, bs)) ∨
        ((∀ b ∈ a :: reads, Spec.Bringing b) ∧ ∃ bs, readToEnd (a :: reads) buf = (.waiting, bs)) := by
      intro hb e
      rw [e]
      rcases ih (buf ++ Spec.brought a) with ⟨before, after, rfl, hB, he⟩ | h | ⟨hB, h⟩
      · refine Or.inl ⟨a :: before, after, rfl, ?_, ?_⟩
        · intro x hx
          rcases List.mem_cons.1 hx with rfl | hx
          · exact hb
          · exact hB x hx
        · rw [he]
          simp
      · exact Or.inr (Or.inl h)
      · refine Or.inr (Or.inr ⟨?_, h⟩)
        intro x hx
        rcases List.mem_cons.1 hx with rfl | hx
        · exact hb
        · exact hB x hx
    match a with
    | .interrupted => exact step (Or.inl rfl) (by rw [readToEnd]; simp [Spec.brought])
    | .failed => exact Or.inr (Or.inl ⟨buf, rfl⟩)
    | .got [] => exact Or.inl ⟨[], reads, rfl, by simp, by simp [readToEnd]⟩
    | .got (b :: bs) => exact step (Or.inr ⟨b, bs, rfl⟩) (by rw [readToEnd, if_neg (by simp)]; rfl)

theorem stdinToEnd_holds {closed : Bool} {reads : List ReadAnswer} {bs : List UInt8} (h : Spec.Holds closed reads bs) :
    stdinToEnd closed reads = (.done, bs) := by
  unfold stdinToEnd
  rcases h with ⟨rfl, rfl⟩ | ⟨rfl, before, after, rfl, hB, rfl⟩
  · rfl
  · rw [if_neg (by simp), readToEnd_done _ hB, List.nil_append]

/-! ## The programs -/

theorem print_nothing (closed : Bool) (writes : List WriteAnswer) :
    printAndExit stdoutCap closed ⟨writes, [], []⟩ [[]] = cleanup closed 0 ⟨writes, [], []⟩ := by
  cases closed <;> rfl

theorem cleanup_nothing (closed : Bool) (status : Nat) (writes : List WriteAnswer) :
    cleanup closed status ⟨writes, [], []⟩ = (.exited status, ⟨writes, [], []⟩) := by
  cases closed with
  | true => rfl
  | false =>
    unfold cleanup flushBuf
    simp only [Bool.false_eq_true, if_false]
    rw [writeLoop.eq_def]
    rfl

section
variable {convert : Str → Res Str} {convertBytes : List UInt8 → Res (List UInt8)}

theorem process_job (hc : ∀ s, convertBytes (utf8 s) = (convert s).map utf8) (h0 : convert [] = .ok [])
    {argv : List (List UInt8)} {inClosed : Bool} {reads : List ReadAnswer} {text r : Str} {tail : List UInt8}
    (hj : Spec.Job argv inClosed reads text tail) (hr : convert text = .ok r) (outClosed : Bool)
    (writes : List WriteAnswer) :
    cliProcess convertBytes argv inClosed reads outClosed writes =
      printAndExit stdoutCap outClosed ⟨writes, [], []⟩ (if tail = [] then [utf8 r] else [utf8 r, tail]) := by
  obtain ⟨name, args, rfl, ⟨h1, h2, rfl, rfl⟩ | ⟨h1, h2, rfl⟩⟩ := hj
  all_goals
    unfold cliProcess
    rw [show utf8 name :: args.map utf8 = (name :: args).map utf8 from rfl, envArgsBytes_ok]
    simp only [← List.map_drop, joinSpaceBytes_utf8, utf8_isEmpty, List.drop_succ_cons, List.drop_zero, joinSpace_eq]
  · have : Spec.spaced args ≠ [] := fun h => ((C55_cases args).1 h).elim h1 h2
    simp only [show (Spec.spaced args).isEmpty = false by rw [← Bool.not_eq_true, List.isEmpty_iff]; exact this,
      Bool.not_false, if_true, hc, hr]
    rfl
  · rw [(C55_cases args).2 h1, stdinToEnd_holds h2]
    simp only [List.isEmpty_nil, Bool.not_true, Bool.false_eq_true, if_false, fromUtf8_utf8, utf8_isEmpty, if_true]
    by_cases ht : text = []
    · subst ht
      rw [h0] at hr
      cases hr
      simp only [List.isEmpty_nil, Bool.not_true, Bool.false_eq_true, if_false]
      exact (print_nothing _ _).symm
    · simp only [show text.isEmpty = false by rw [← Bool.not_eq_true, List.isEmpty_iff]; exact ht,
        Bool.not_false, if_true, hc, hr]
      rfl

theorem process_writes (hc : ∀ s, convertBytes (utf8 s) = (convert s).map utf8) (h0 : convert [] = .ok [])
    {argv : List (List UInt8)} {inClosed : Bool} {reads : List ReadAnswer} {text r : Str} {tail : List UInt8}
    (hj : Spec.Job argv inClosed reads text tail) (hr : convert text = .ok r) (writes : List WriteAnswer) :
    Spec.Writes (utf8 r ++ tail) writes (cliProcess convertBytes argv inClosed reads false writes).1
      (cliProcess convertBytes argv inClosed reads false writes).2.sent := by
  rw [process_job hc h0 hj hr]
  obtain ⟨name, args, rfl, ⟨h1, h2, rfl, rfl⟩ | ⟨h1, h2, rfl⟩⟩ := hj
  · rw [if_neg (by simp)]
    exact println_writes writes (utf8 r)
  · rw [if_pos rfl, List.append_nil]
    exact print_writes writes (utf8 r)

theorem process_idle {name : List UInt8} {argv : List (List UInt8)} {inClosed : Bool} {reads : List ReadAnswer}
    (hj : ∀ text tail, ¬ Spec.Job (name :: argv) inClosed reads text tail) (outClosed : Bool)
    (writes : List WriteAnswer) :
    (cliProcess convertBytes (name :: argv) inClosed reads outClosed writes).2.sent = [] ∧
    ((cliProcess convertBytes (name :: argv) inClosed reads outClosed writes).1 = .exited 101 ∨
     ((cliProcess convertBytes (name :: argv) inClosed reads outClosed writes).1 = .running ∧ inClosed = false ∧
       ∀ a ∈ reads, Spec.Bringing a)) := by
  unfold cliProcess
  by_cases ha : ∃ a ∈ name :: argv, ¬ ∃ s, a = utf8 s
  · rw [envArgsBytes_error _ ha]
    simp only [cleanup_nothing]
    simp
  · have hall : ∀ l : List (List UInt8), (∀ a ∈ l, ∃ s, a = utf8 s) → ∃ t : List Str, l = t.map utf8 := by
      intro l
      induction l with
      | nil => intro _; exact ⟨[], rfl⟩
      | cons a l ih =>
        intro h
        obtain ⟨s, rfl⟩ := h a (by simp)
        obtain ⟨t, rfl⟩ := ih fun b hb => h b (by simp [hb])
        exact ⟨s :: t, rfl⟩
    have hu : ∀ a ∈ name :: argv, ∃ s, a = utf8 s := fun a h => Classical.byContradiction fun h' => ha ⟨a, h, h'⟩
    obtain ⟨n, rfl⟩ := hu name (by simp)
    obtain ⟨args, rfl⟩ := hall argv fun a h => hu a (by simp [h])
    by_cases he : args = [] ∨ args = [[]]
    · rw [show utf8 n :: args.map utf8 = (n :: args).map utf8 from rfl, envArgsBytes_ok]
      simp only [← List.map_drop, joinSpaceBytes_utf8, utf8_isEmpty, List.drop_succ_cons, List.drop_zero, joinSpace_eq]
      rw [(C55_cases args).2 he]
      simp only [List.isEmpty_nil, Bool.not_true, Bool.false_eq_true, if_false]
      have bad : ∀ bs, Spec.Holds inClosed reads bs → fromUtf8 bs = none := fun bs hh =>
        fromUtf8_none fun ⟨s, e⟩ => hj s [] ⟨n, args, rfl, Or.inr ⟨he, e ▸ hh, rfl⟩⟩
      cases inClosed with
      | true =>
        have := bad [] (Or.inl ⟨rfl, rfl⟩)
        rw [show ([] : List UInt8) = utf8 [] from rfl, fromUtf8_utf8] at this
        cases this
      | false =>
        unfold stdinToEnd
        simp only [Bool.false_eq_true, if_false]
        rcases readToEnd_cases reads [] with ⟨before, after, rfl, hB, e⟩ | ⟨bs, e⟩ | ⟨hB, bs, e⟩
        · rw [e]
          simp only [List.nil_append]
          rw [bad _ (Or.inr ⟨rfl, before, after, rfl, hB, rfl⟩)]
          simp only [cleanup_nothing]
          simp
        · rw [e]
          simp only [cleanup_nothing]
          simp
        · rw [e]
          simp only [true_and]
          exact Or.inr hB
    · exact absurd ⟨n, args, rfl, Or.inl ⟨fun h => he (Or.inl h), fun h => he (Or.inr h), rfl, rfl⟩⟩ (hj _ [0x0A])

end

theorem to_romaji_nil {std : Std} (hstd : std.Lawful) : to_romaji std [] = .ok [] := by
  obtain ⟨t, ht⟩ : ∃ t, to_romaji std [] = .ok t := C27_total hstd _ _
  have := C37_length hstd [] t {} ht
  rw [ht, List.eq_nil_of_length_eq_zero (Nat.le_zero.1 this)]

/-- **C113** whatever the operating system does, what `to_kana` writes is always a beginning of the conversion of its
arguments or input; if it ends with success at most the end of the last line is missing, and only if a call of `write`
failed; it fails only if such a call failed; it writes everything if no call fails -/
theorem C113_to_kana {std : Std} (hstd : std.Lawful) {argv : List (List UInt8)} {inClosed : Bool}
    {reads : List ReadAnswer} {text r : Str} {tail : List UInt8} (hj : Spec.Job argv inClosed reads text tail)
    (hr : to_kana std text = .ok r) (writes : List WriteAnswer) :
    Spec.Writes (utf8 r ++ tail) writes (toKanaProcess std argv inClosed reads false writes).1
      (toKanaProcess std argv inClosed reads false writes).2.sent :=
  process_writes (convert := to_kana std) (fun s => C104_to_kana std s {})
    (by rw [to_kana, to_kana_eq hstd, kana, scan]) hj hr writes

/-- **C113** the same of `to_romaji` -/
theorem C113_to_romaji {std : Std} (hstd : std.Lawful) (n : Nat) {argv : List (List UInt8)} {inClosed : Bool}
    {reads : List ReadAnswer} {text r : Str} {tail : List UInt8} (hj : Spec.Job argv inClosed reads text tail)
    (hr : to_romaji std text = .ok r) (writes : List WriteAnswer) :
    Spec.Writes (utf8 r ++ tail) writes (toRomajiProcess std n argv inClosed reads false writes).1
      (toRomajiProcess std n argv inClosed reads false writes).2.sent :=
  process_writes (convert := to_romaji std) (fun s => C104_to_romaji std hstd n s {}) (to_romaji_nil hstd) hj hr writes

/-- **C113** with arguments success means that everything is written -/
theorem C113_arguments {w : List UInt8} {writes : List WriteAnswer} {p : Process} {sent : List UInt8}
    (h : Spec.Writes (w ++ [0x0A]) writes p sent) (h0 : p = .exited 0) : sent = w ++ [0x0A] := by
  obtain ⟨lost, e, hn, -⟩ := h.success h0
  rcases List.eq_nil_or_concat lost with rfl | ⟨l, b, rfl⟩
  · rw [← e, List.append_nil]
  · rw [List.concat_eq_append, ← List.append_assoc] at e
    have := (List.append_inj' e rfl).2
    exact absurd (by simp [List.cons.inj this]) hn

/-- **C113** without text to convert (an argument that is not UTF-8, or standard input that is not, cannot be read or
has not ended) nothing is written: the programs fail, or wait for more input -/
theorem C113_no_text (std : Std) (n : Nat) {name : List UInt8} {argv : List (List UInt8)}
    {inClosed : Bool} {reads : List ReadAnswer}
    (hj : ∀ text tail, ¬ Spec.Job (name :: argv) inClosed reads text tail) (outClosed : Bool)
    (writes : List WriteAnswer) (p : Process × Out)
    (hp : p = toKanaProcess std (name :: argv) inClosed reads outClosed writes ∨
      p = toRomajiProcess std n (name :: argv) inClosed reads outClosed writes) :
    p.2.sent = [] ∧ (p.1 = .exited 101 ∨ (p.1 = .running ∧ inClosed = false ∧ ∀ a ∈ reads, Spec.Bringing a)) := by
  rcases hp with rfl | rfl
  · exact process_idle hj outClosed writes
  · exact process_idle hj outClosed writes

/-- **C113** a closed standard output goes unnoticed: nothing is written and the programs succeed -/
theorem C113_closed {std : Std} (hstd : std.Lawful) (n : Nat) {argv : List (List UInt8)}
    {inClosed : Bool} {reads : List ReadAnswer} {text : Str} {tail : List UInt8}
    (hj : Spec.Job argv inClosed reads text tail) (writes : List WriteAnswer) (p : Process × Out)
    (hp : p = toKanaProcess std argv inClosed reads true writes ∨
      p = toRomajiProcess std n argv inClosed reads true writes) :
    p.1 = .exited 0 ∧ p.2.sent = [] := by
  rcases hp with rfl | rfl
  · obtain ⟨r, hr⟩ : ∃ r, to_kana std text = .ok r := C09_total hstd text {}
    unfold toKanaProcess
    rw [process_job (convert := to_kana std) (fun s => C104_to_kana std s {})
      (by rw [to_kana, to_kana_eq hstd, kana, scan]) hj hr]
    exact printAndExit_closed _ _ _
  · obtain ⟨r, hr⟩ : ∃ r, to_romaji std text = .ok r := C27_total hstd text {}
    unfold toRomajiProcess
    rw [process_job (convert := to_romaji std) (fun s => C104_to_romaji std hstd n s {}) (to_romaji_nil hstd) hj hr]
    exact printAndExit_closed _ _ _

/-! ## A loss that goes unnoticed -/

theorem lastNewline_of_notMem : ∀ {u : List UInt8}, (0x0A : UInt8) ∉ u → lastNewline u = none
  | [], _ => rfl
  | b :: u, h => by
    rw [lastNewline, lastNewline_of_notMem fun hm => h (by simp [hm])]
    simp only
    rw [if_neg fun e => h (by rw [beq_iff_eq] at e; simp [e])]

theorem lastNewline_append {u : List UInt8} (h : (0x0A : UInt8) ∉ u) :
    ∀ l : List UInt8, lastNewline (l ++ 0x0A :: u) = some l.length
  | [] => by rw [List.nil_append, lastNewline, lastNewline_of_notMem h]; rfl
  | b :: l => by rw [List.cons_append, lastNewline, lastNewline_append h l]; rfl

theorem flush_failed {o : Out} {as : List WriteAnswer} (ha : o.answers = .failed :: as) (hb : o.buf ≠ []) :
    flushBuf false o = (.error, { o with answers := as }) := by
  obtain ⟨as', sent, buf⟩ := o
  cases ha
  match buf, hb with
  | b :: bs, _ => simp [flushBuf, writeLoop]

theorem print_loses {lines u : List UInt8} (hl : lines = [] ∨ lines.getLast? = some 0x0A) (hu : u ≠ [])
    (hn : (0x0A : UInt8) ∉ u) (hlen : u.length < stdoutCap) :
    ∃ writes, (printAndExit stdoutCap false ⟨writes, [], []⟩ [lines ++ u]).1 = .exited 0 ∧
      (printAndExit stdoutCap false ⟨writes, [], []⟩ [lines ++ u]).2.sent = lines := by
  have hend : ∀ o : Out, o.buf = u → o.answers = [.failed] →
      (cleanup false 0 o).1 = .exited 0 ∧ (cleanup false 0 o).2.sent = o.sent := by
    intro o h1 h2
    unfold cleanup
    rw [flush_failed h2 (h1 ▸ hu)]
    exact ⟨rfl, rfl⟩
  rcases hl with rfl | hl
  · refine ⟨[.failed], ?_⟩
    have : printPieces stdoutCap false ⟨[.failed], [], []⟩ [[] ++ u] = (.done, ⟨[.failed], [], u⟩) := by
      rw [printPieces, List.nil_append, lineWriteAll, lastNewline_of_notMem hn]
      show andThen (bufWriteAll stdoutCap false ⟨[.failed], [], []⟩ u) _ = _
      rw [bufWriteAll, if_pos (by simpa using hlen)]
      rfl
    unfold printAndExit
    rw [this]
    exact hend _ rfl rfl
  · obtain ⟨l, rfl⟩ := List.getLast?_eq_some_iff.1 hl
    refine ⟨[.wrote (l.length + 1), .failed], ?_⟩
    have : printPieces stdoutCap false ⟨[.wrote (l.length + 1), .failed], [], []⟩ [l ++ [0x0A] ++ u] =
        (.done, ⟨[.failed], l ++ [0x0A], u⟩) := by
      rw [printPieces, List.append_assoc, List.singleton_append, lineWriteAll, lastNewline_append hn]
      have htake : (l ++ 0x0A :: u).take (l.length + 1) = l ++ [0x0A] := by
        rw [show l ++ (0x0A : UInt8) :: u = (l ++ [0x0A]) ++ u by simp,
          show l.length + 1 = (l ++ [(0x0A : UInt8)]).length by simp, List.take_left]
      have hdrop : (l ++ 0x0A :: u).drop (l.length + 1) = u := by
        rw [show l ++ (0x0A : UInt8) :: u = (l ++ [0x0A]) ++ u by simp,
          show l.length + 1 = (l ++ [(0x0A : UInt8)]).length by simp, List.drop_left]
      simp only [List.isEmpty_nil, if_true, htake, hdrop]
      have hraw : rawWriteAll false ⟨[.wrote (l.length + 1), .failed], [], []⟩ (l ++ [0x0A]) =
          (.done, ⟨[.failed], l ++ [0x0A], []⟩) := by
        unfold rawWriteAll
        simp only [Bool.false_eq_true, if_false]
        have : writeLoop [.wrote (l.length + 1), .failed] (l ++ [0x0A]) = (.done, [.failed], l ++ [0x0A], []) := by
          cases hc : l ++ [(0x0A : UInt8)] with
          | nil => simp at hc
          | cons b bs =>
            have hlen : (b :: bs).length = l.length + 1 := by rw [← hc]; simp
            rw [writeLoop, if_neg (by simp), ← hlen, List.drop_length, List.take_length, writeLoop.eq_def]
            simp
        rw [this]
        rfl
      rw [hraw]
      show andThen (bufWriteAll stdoutCap false ⟨[.failed], l ++ [0x0A], []⟩ u) _ = _
      rw [bufWriteAll, if_pos (by simpa using hlen)]
      rfl
    unfold printAndExit
    rw [this]
    exact hend _ rfl rfl

/-- **C113** and that part of the last line can really be lost: whenever the conversion of the input ends with an
unfinished line of less than 1024 bytes the system can refuse it and the programs succeed all the same -/
theorem C113_lost {std : Std} (hstd : std.Lawful) (n : Nat) {argv : List (List UInt8)} {inClosed : Bool}
    {reads : List ReadAnswer} {text r : Str} {lines u : List UInt8} (hj : Spec.Job argv inClosed reads text [])
    (hu : u ≠ []) (hn : (0x0A : UInt8) ∉ u) (hlen : u.length < 1024)
    (hl : lines = [] ∨ lines.getLast? = some 0x0A) (hw : utf8 r = lines ++ u) :
    (to_kana std text = .ok r → ∃ writes, (toKanaProcess std argv inClosed reads false writes).1 = .exited 0 ∧
      (toKanaProcess std argv inClosed reads false writes).2.sent = lines) ∧
    (to_romaji std text = .ok r → ∃ writes, (toRomajiProcess std n argv inClosed reads false writes).1 = .exited 0 ∧
      (toRomajiProcess std n argv inClosed reads false writes).2.sent = lines) := by
  obtain ⟨writes, h1, h2⟩ := print_loses hl hu hn hlen
  constructor
  · intro hr
    refine ⟨writes, ?_⟩
    unfold toKanaProcess
    rw [process_job (convert := to_kana std) (fun s => C104_to_kana std s {})
      (by rw [to_kana, to_kana_eq hstd, kana, scan]) hj hr, if_pos rfl, hw]
    exact ⟨h1, h2⟩
  · intro hr
    refine ⟨writes, ?_⟩
    unfold toRomajiProcess
    rw [process_job (convert := to_romaji std) (fun s => C104_to_romaji std hstd n s {}) (to_romaji_nil hstd) hj hr,
      if_pos rfl, hw]
    exact ⟨h1, h2⟩

/-- the hypotheses are met: `to_kana` reads `ka⏎k`, interrupted in between -/
example : Spec.Job [utf8 ['x']] false [.got [0x6B], .interrupted, .got [0x61, 0x0A, 0x6B], .got []] "ka\nk".toList [] :=
  ⟨['x'], [], rfl, Or.inr ⟨Or.inl rfl, Or.inr ⟨rfl, [.got [0x6B], .interrupted, .got [0x61, 0x0A, 0x6B]], [], rfl, by
    intro a ha
    simp only [List.mem_cons, List.not_mem_nil, or_false] at ha
    rcases ha with rfl | rfl | rfl
    · exact Or.inr ⟨_, _, rfl⟩
    · exact Or.inl rfl
    · exact Or.inr ⟨_, _, rfl⟩, by decide +kernel⟩, rfl⟩⟩
example : Spec.Job [utf8 ['x'], utf8 ['k', 'a']] true [] ['k', 'a'] [0x0A] :=
  ⟨['x'], [['k', 'a']], rfl, Or.inl ⟨by simp, by simp, by decide +kernel, rfl⟩⟩
/-- and no text: half a character -/
example (text : Str) (tail : List UInt8) : ¬ Spec.Job [[0xE3]] true [] text tail := by
  rintro ⟨name, args, h, -⟩
  have h := (List.cons.inj h).1
  exact absurd ((C105_valid [0xE3]).2 ⟨name, h⟩) (by decide +kernel)

/-- runs: in pieces; the unfinished line lost; a failure in the middle; waiting -/
example : toKanaProcess modernStd [[0x78]] false [.got [0x6B], .interrupted, .got [0x61, 0x0A, 0x6B], .got []] false
      [.wrote 1, .interrupted, .wrote 3, .wrote 9] = (.exited 0, ⟨[], [0xE3, 0x81, 0x8B, 0x0A, 0x6B], []⟩) ∧
    toKanaProcess modernStd [[0x78]] false [.got [0x6B, 0x61, 0x0A, 0x6B], .got []] false
      [.wrote 4, .failed] = (.exited 0, ⟨[], [0xE3, 0x81, 0x8B, 0x0A], [0x6B]⟩) ∧
    toKanaProcess modernStd [[0x78]] false [.got [0x6B, 0x61, 0x0A, 0x6B], .got []] false
      [.wrote 2, .wrote 0, .wrote 7] = (.exited 101, ⟨[.wrote 7], [0xE3, 0x81], []⟩) ∧
    toKanaProcess modernStd [[0x78], [0x6B, 0x61]] false [] false [.wrote 2] =
      (.running, ⟨[], [0xE3, 0x81], [0x8B, 0x0A]⟩) ∧
    toKanaProcess modernStd [[0x78]] false [.got [0x6B]] false [] = (.running, ⟨[], [], []⟩) ∧
    toRomajiProcess modernStd 16 [[0x78], [0xE3, 0x82, 0xAB]] false [] false [.failed, .wrote 9] =
      (.exited 101, ⟨[], [0x6B, 0x61, 0x0A], []⟩) := by decide +kernel

end WanaKana
