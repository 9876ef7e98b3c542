import Verif.Model.TestRun
import Verif.Props.Compare
import Verif.Props.Validation
import Verif.Props.LutVerify
import Verif.Proof.DictKeys

/-!
# Properties of the test automation (C102 to C105)
-/

namespace Verif

open TestRun

/-! ## C102: reading the output of pytest -/

/-- A part of the name of a test: without blanks, brackets and colons. -/
def Spec.CleanPart (w : List Char) : Prop := w ≠ [] ∧ ∀ c ∈ w, isSpace c = false ∧ c ≠ '[' ∧ c ≠ ']' ∧ c ≠ ':'

/-- The end of a line: nothing, or something set off by a blank or a bracket. -/
def Spec.TailPart (t : List Char) : Prop := t = [] ∨ ∃ c r, t = c :: r ∧ (c = ' ' ∨ c = '[' ∨ c = ']')

/-- The lines of a summary that name a test of a class or a test with a parameter: `STATUS file::Class::test` or
`STATUS file::test[param]`, whatever follows. -/
def Spec.NamesTest (line : List Char) (i : Info) : Prop :=
  Spec.CleanPart i.status ∧ Spec.CleanPart i.file ∧ Spec.CleanPart i.test ∧ '/' ∉ i.test ∧ Spec.CleanPart i.reference ∧
  ∃ sep tail, (sep = "::".toList ∨ sep = "[".toList) ∧ Spec.TailPart tail ∧
    line = i.status ++ " ".toList ++ i.file ++ "::".toList ++ i.test ++ sep ++ i.reference ++ tail

/-- The lines that name a test that is a plain function: `STATUS file::test`, whatever follows. -/
def Spec.NamesFunction (line : List Char) (status file test : List Char) (tail : List Char) : Prop :=
  Spec.CleanPart status ∧ Spec.CleanPart file ∧ Spec.CleanPart test ∧
    line = status ++ " ".toList ++ file ++ "::".toList ++ test ++ tail

theorem replaceColons_clean {w : List Char} (hw : Spec.CleanPart w) (r : List Char) :
    replaceColons (w ++ r) = w ++ replaceColons r := by
  have h := hw.2
  clear hw
  induction w with
  | nil => rfl
  | cons c w ih =>
    have hc : c ≠ ':' := (h c (by simp)).2.2.2
    have e := ih (fun x hx => h x (by simp [hx]))
    show replaceColons (c :: (w ++ r)) = _
    rw [replaceColons]
    · rw [e]; rfl
    · rintro s rfl
      exact absurd rfl hc

theorem replaceColons_plain (c : Char) (hc : c ≠ ':') (r : List Char) : replaceColons (c :: r) = c :: replaceColons r := by
  rw [replaceColons]
  rintro s rfl
  exact absurd rfl hc

theorem replaceBrackets_append (a b : List Char) : replaceBrackets (a ++ b) = replaceBrackets a ++ replaceBrackets b := by
  unfold replaceBrackets; rw [List.map_append]

theorem replaceBrackets_clean {w : List Char} (hw : Spec.CleanPart w) : replaceBrackets w = w := by
  unfold replaceBrackets
  conv_rhs => rw [← List.map_id w]
  apply List.map_congr_left
  intro c hc
  obtain ⟨-, h1, h2, -⟩ := hw.2 c hc
  simp [h1, h2]

theorem words_cons {w : List Char} (hw : Spec.CleanPart w) (r : List Char) : words (w ++ ' ' :: r) = w :: words r := by
  unfold words
  rw [List.splitOnP_append_cons_of_forall_mem (fun x hx => (hw.2 x hx).1) ' ' (by decide)]
  rw [List.filter_cons_of_pos (by simpa using hw.1)]

theorem words_single {w : List Char} (hw : Spec.CleanPart w) : words w = [w] := by
  unfold words
  rw [List.splitOnP_eq_singleton (fun x hx => (hw.2 x hx).1)]
  rw [List.filter_cons_of_pos (by simpa using hw.1)]; rfl

/-- The words of the rest of a line after a clean part. -/
theorem words_tail {w t : List Char} (hw : Spec.CleanPart w) (ht : Spec.TailPart t) :
    ∃ l, words (w ++ replaceBrackets (replaceColons t)) = w :: l := by
  rcases ht with rfl | ⟨c, r, rfl, hc⟩
  · exact ⟨[], by simp [replaceColons, replaceBrackets, words_single hw]⟩
  · refine ⟨words (replaceBrackets (replaceColons r)), ?_⟩
    have h1 : c ≠ ':' := by rcases hc with rfl | rfl | rfl <;> decide
    rw [replaceColons_plain c h1]
    have h2 : replaceBrackets (c :: replaceColons r) = ' ' :: replaceBrackets (replaceColons r) := by
      unfold replaceBrackets
      rcases hc with rfl | rfl | rfl <;> simp
    rw [h2, words_cons hw]

theorem line_head {s f t : List Char} (hs : Spec.CleanPart s) (hf : Spec.CleanPart f) (ht : Spec.CleanPart t) (r : List Char) :
    replaceBrackets (replaceColons (s ++ " ".toList ++ f ++ "::".toList ++ t ++ r)) =
      s ++ ' ' :: (f ++ ' ' :: (t ++ replaceBrackets (replaceColons r))) := by
  have e : s ++ " ".toList ++ f ++ "::".toList ++ t ++ r = s ++ (' ' :: (f ++ (':' :: ':' :: (t ++ r)))) := by simp
  rw [e, replaceColons_clean hs, replaceColons_plain ' ' (by decide), replaceColons_clean hf]
  rw [show replaceColons (':' :: ':' :: (t ++ r)) = ' ' :: replaceColons (t ++ r) from by rw [replaceColons]]
  rw [replaceColons_clean ht]
  simp only [replaceBrackets_append, replaceBrackets_clean hs]
  have sp : ∀ x, replaceBrackets (' ' :: x) = ' ' :: replaceBrackets x := by intro x; simp [replaceBrackets]
  rw [sp, replaceBrackets_append, replaceBrackets_clean hf, sp, replaceBrackets_append, replaceBrackets_clean ht]

/-- The last component of a path. -/
def Spec.LastPart (path name : List Char) : Prop := '/' ∉ name ∧ (path = name ∨ ∃ dir, path = dir ++ '/' :: name)

theorem afterLast_iff (x : Char) (path name : List Char) :
    (path.reverse.takeWhile (· ≠ x)).reverse = name ↔ x ∉ name ∧ (path = name ∨ ∃ dir, path = dir ++ x :: name) := by
  have key : ∀ l : List Char, x ∉ l → l.takeWhile (· ≠ x) = l := by
    intro l
    induction l with
    | nil => intro _; rfl
    | cons c l ih =>
      intro hl
      simp only [List.mem_cons, not_or] at hl
      rw [List.takeWhile_cons_of_pos (by simpa using fun e => hl.1 e.symm), ih hl.2]
  constructor
  · rintro rfl
    constructor
    · rw [List.mem_reverse]
      have hall := List.all_takeWhile (p := fun c : Char => decide (c ≠ x)) (l := path.reverse)
      rw [List.all_eq_true] at hall
      intro h
      have := hall _ h
      simp at this
    · have h := List.takeWhile_append_dropWhile (p := fun c : Char => decide (c ≠ x)) (l := path.reverse)
      rcases hd : path.reverse.dropWhile (fun c => decide (c ≠ x)) with _ | ⟨c, r⟩
      · rw [hd, List.append_nil] at h
        left
        conv_lhs => rw [← List.reverse_reverse path, ← h]
      · right
        have hc : c = x := by
          have := List.head_dropWhile_not (p := fun c : Char => decide (c ≠ x)) (l := path.reverse) (by rw [hd]; simp)
          simp only [hd, List.head_cons] at this
          simpa using this
        subst hc
        refine ⟨r.reverse, ?_⟩
        conv_lhs => rw [← List.reverse_reverse path, ← h, hd]
        simp
  · rintro ⟨h, rfl | ⟨dir, rfl⟩⟩
    · rw [key _ (by simpa using h), List.reverse_reverse]
    · rw [List.reverse_append, List.reverse_cons, List.append_assoc, List.takeWhile_append, key _ (by simpa using h)]
      simp

theorem basename_iff (path name : List Char) : Importers.basename path = name ↔ Spec.LastPart path name :=
  afterLast_iff '/' path name

theorem basename_clean {t : List Char} (h : '/' ∉ t) : Importers.basename t = t := (basename_iff t t).2 ⟨h, Or.inl rfl⟩

theorem hasColons_iff (s : List Char) : hasColons s = true ↔ [':', ':'] <:+: s := by
  unfold hasColons
  simp

theorem hasColons_line (s f t r : List Char) : hasColons (s ++ " ".toList ++ f ++ "::".toList ++ t ++ r) = true := by
  rw [hasColons_iff]
  exact ⟨s ++ " ".toList ++ f, t ++ r, by simp⟩

theorem parseLine_names {line : List Char} {i : Info} (h : Spec.NamesTest line i) : hasColons line = true ∧ parseLine line = .ok i := by
  obtain ⟨hs, hf, ht, hb, hr, sep, tail, hsep, htail, rfl⟩ := h
  constructor
  · have := hasColons_line i.status i.file i.test (sep ++ i.reference ++ tail)
    simpa using this
  · have e : i.status ++ " ".toList ++ i.file ++ "::".toList ++ i.test ++ sep ++ i.reference ++ tail =
        i.status ++ " ".toList ++ i.file ++ "::".toList ++ i.test ++ (sep ++ i.reference ++ tail) := by simp
    have e2 : replaceBrackets (replaceColons (sep ++ i.reference ++ tail)) = ' ' :: (i.reference ++ replaceBrackets (replaceColons tail)) := by
      rcases hsep with rfl | rfl
      · rw [show ("::".toList ++ i.reference ++ tail : List Char) = ':' :: ':' :: (i.reference ++ tail) from by simp]
        rw [replaceColons, replaceColons_clean hr]
        rw [show (' ' :: (i.reference ++ replaceColons tail) : List Char) = [' '] ++ (i.reference ++ replaceColons tail) from rfl]
        rw [replaceBrackets_append, replaceBrackets_append, replaceBrackets_clean hr]
        rfl
      · rw [show ("[".toList ++ i.reference ++ tail : List Char) = '[' :: (i.reference ++ tail) from by simp]
        rw [replaceColons_plain '[' (by decide), replaceColons_clean hr]
        rw [show ('[' :: (i.reference ++ replaceColons tail) : List Char) = ['['] ++ (i.reference ++ replaceColons tail) from rfl]
        rw [replaceBrackets_append, replaceBrackets_append, replaceBrackets_clean hr]
        rfl
    obtain ⟨l, hl⟩ := words_tail hr htail
    unfold parseLine
    rw [e, line_head hs hf ht, e2, words_cons hs, words_cons hf, words_cons ht, hl]
    simp [wordAt, bind, Except.bind, pure, Except.pure, basename_clean hb]

theorem parseLine_function {line s f t tail : List Char} (h : Spec.NamesFunction line s f t tail) :
    hasColons line = true ∧ (tail = [] → parseLine line = .error .indexError) ∧
    (∀ r, tail = " - ".toList ++ r → parseLine line = .ok ⟨f, Importers.basename t, ['-'], s⟩) := by
  obtain ⟨hs, hf, ht, rfl⟩ := h
  refine ⟨hasColons_line s f t tail, ?_, ?_⟩
  · rintro rfl
    unfold parseLine
    rw [line_head hs hf ht, words_cons hs, words_cons hf]
    rw [show replaceBrackets (replaceColons []) = [] from rfl, List.append_nil, words_single ht]
    rfl
  · rintro r rfl
    have hd : Spec.CleanPart ['-'] := ⟨by simp, by intro c hc; simp only [List.mem_singleton] at hc; subst hc; decide⟩
    unfold parseLine
    rw [line_head hs hf ht]
    rw [show (" - ".toList ++ r : List Char) = ' ' :: (['-'] ++ (' ' :: r)) from by simp]
    rw [replaceColons_plain ' ' (by decide), replaceColons_clean hd, replaceColons_plain ' ' (by decide)]
    have sp : ∀ x, replaceBrackets (' ' :: x) = ' ' :: replaceBrackets x := by intro x; simp [replaceBrackets]
    rw [sp, replaceBrackets_append, replaceBrackets_clean hd, sp, words_cons hs, words_cons hf, words_cons ht, words_cons hd]
    rfl

/-- The tests with a status. -/
def Spec.withStatus (s : String) (l : List Info) : List Info := l.filter (fun i => i.status = s.toList)

/-- The lines of a summary with the tests that they name: lines without `::` name none. -/
def Spec.SummaryLines (rs : List (List Char × Option Info)) : Prop :=
  ∀ p ∈ rs, (p.2 = none ∧ ¬ [':', ':'] <:+: p.1) ∨
    ∃ i, p.2 = some i ∧ Spec.NamesTest p.1 i ∧ (i.status = "PASSED".toList ∨ i.status = "FAILED".toList ∨ i.status = "ERROR".toList)

theorem readLines (rs : List (List Char × Option Info)) (h : Spec.SummaryLines rs) (acc : Results) :
    (rs.map Prod.fst).foldlM readLine acc = .ok (acc.append ⟨Spec.withStatus "PASSED" (rs.filterMap Prod.snd),
      Spec.withStatus "FAILED" (rs.filterMap Prod.snd), Spec.withStatus "ERROR" (rs.filterMap Prod.snd)⟩) := by
  induction rs generalizing acc with
  | nil => simp [Spec.withStatus, Results.append, pure, Except.pure]
  | cons p rs ih =>
    have ih := ih (fun q hq => h q (by simp [hq]))
    simp only [List.map_cons, List.foldlM_cons]
    rcases h p (by simp) with ⟨h1, h2⟩ | ⟨i, h1, h2, h3⟩
    · have hc : hasColons p.1 = false := by
        rw [Bool.eq_false_iff, ne_eq, hasColons_iff]; exact h2
      have e : readLine acc p.1 = .ok acc := by unfold readLine; simp [hc]
      rw [e]
      simp only [bind, Except.bind]
      rw [ih, List.filterMap_cons, h1]
    · obtain ⟨hc, hp⟩ := parseLine_names h2
      rw [List.filterMap_cons, h1]
      have n1 : ("FAILED".toList : List Char) ≠ "PASSED".toList := by decide
      have n2 : ("ERROR".toList : List Char) ≠ "PASSED".toList := by decide
      have n3 : ("ERROR".toList : List Char) ≠ "FAILED".toList := by decide
      rcases h3 with h3 | h3 | h3
      · have e : readLine acc p.1 = .ok { acc with passes := acc.passes ++ [i] } := by
          unfold readLine; simp only [hc, if_true, hp, bind, Except.bind, h3, pure, Except.pure]
        rw [e]
        simp only [bind, Except.bind]
        rw [ih]
        simp [Spec.withStatus, Results.append, h3]
      · have e : readLine acc p.1 = .ok { acc with fails := acc.fails ++ [i] } := by
          unfold readLine; simp only [hc, if_true, hp, bind, Except.bind, h3, pure, Except.pure, if_neg n1]
        rw [e]
        simp only [bind, Except.bind]
        rw [ih]
        simp [Spec.withStatus, Results.append, h3]
      · have e : readLine acc p.1 = .ok { acc with errors := acc.errors ++ [i] } := by
          unfold readLine; simp only [hc, if_true, hp, bind, Except.bind, h3, pure, Except.pure, if_neg n2, if_neg n3]
        rw [e]
        simp only [bind, Except.bind]
        rw [ih]
        simp [Spec.withStatus, Results.append, h3]

/-- The heading of the summary. -/
def Spec.Heading (l : List Char) : Prop := "short test summary info".toList <:+: l

theorem isSummary_iff (s : List Char) : isSummary s = true ↔ Spec.Heading s := by
  unfold isSummary Spec.Heading
  exact decide_eq_true_iff

theorem stdout_lines (ls : List (List Char)) (hne : ls ≠ []) (h : ∀ l ∈ ls, '\n' ∉ l) : (['\n'].intercalate ls).splitOn '\n' = ls :=
  List.splitOn_intercalate '\n' h hne

theorem summary_idx (pre : List (List Char)) (hd : List Char) (rest : List (List Char)) (h1 : ∀ l ∈ pre, ¬ Spec.Heading l) (h2 : Spec.Heading hd) :
    (pre ++ hd :: rest).findIdx? isSummary = some pre.length := by
  rw [List.findIdx?_append]
  have : pre.findIdx? isSummary = none := by
    rw [List.findIdx?_eq_none_iff]
    intro l hl
    rw [Bool.eq_false_iff, ne_eq, isSummary_iff]
    exact h1 l hl
  rw [this]
  simp [List.findIdx?_cons, (isSummary_iff hd).2 h2]

/-- **C102**: of any output with a summary whose lines name tests of classes or with parameters, every test is read exactly once, with
its file, name, reference and status, into the list of its status, in order; other lines do not matter, and neither does what follows a name. -/
theorem C102_parse (pre : List (List Char)) (hd : List Char) (rs : List (List Char × Option Info)) (h1 : ∀ l ∈ pre, ¬ Spec.Heading l)
    (h2 : Spec.Heading hd) (h2' : ¬ [':', ':'] <:+: hd) (h3 : Spec.SummaryLines rs) (hn : ∀ l ∈ pre ++ hd :: rs.map Prod.fst, '\n' ∉ l) :
    parseStdout (['\n'].intercalate (pre ++ hd :: rs.map Prod.fst)) = .ok ⟨Spec.withStatus "PASSED" (rs.filterMap Prod.snd),
      Spec.withStatus "FAILED" (rs.filterMap Prod.snd), Spec.withStatus "ERROR" (rs.filterMap Prod.snd)⟩ := by
  unfold parseStdout
  rw [stdout_lines _ (by simp) hn]
  simp only
  rw [summary_idx pre hd _ h1 h2]
  simp only [List.drop_left']
  have hc : hasColons hd = false := by rw [Bool.eq_false_iff, ne_eq, hasColons_iff]; exact h2'
  have e : readLine ⟨[], [], []⟩ hd = .ok ⟨[], [], []⟩ := by unfold readLine; simp [hc]
  rw [List.foldlM_cons, e]
  simp only [bind, Except.bind]
  rw [readLines rs h3]
  simp [Results.append]

/-- No summary: the parser raises. -/
theorem C102_no_summary (ls : List (List Char)) (hne : ls ≠ []) (hn : ∀ l ∈ ls, '\n' ∉ l) (h : ∀ l ∈ ls, ¬ Spec.Heading l) :
    parseStdout (['\n'].intercalate ls) = .error .indexError := by
  unfold parseStdout
  rw [stdout_lines ls hne hn]
  simp only
  have : ls.findIdx? isSummary = none := by
    rw [List.findIdx?_eq_none_iff]
    intro l hl
    rw [Bool.eq_false_iff, ne_eq, isSummary_iff]
    exact h l hl
  rw [this]

/-- **C102**: one line in the wrong form loses all results.  A test that is a plain function without a message makes the parser raise
`IndexError`; a test with another status (expected failures, for instance) `ValueError`; and a plain function with a message is recorded
with the reference `-`. -/
theorem C102_stops (pre : List (List Char)) (hd : List Char) (rs : List (List Char × Option Info)) (bad : List Char)
    (after : List (List Char)) (h1 : ∀ l ∈ pre, ¬ Spec.Heading l) (h2 : Spec.Heading hd) (h2' : ¬ [':', ':'] <:+: hd) (h3 : Spec.SummaryLines rs)
    (hn : ∀ l ∈ pre ++ hd :: (rs.map Prod.fst ++ bad :: after), '\n' ∉ l) :
    ((∃ s f t, Spec.NamesFunction bad s f t []) → parseStdout (['\n'].intercalate (pre ++ hd :: (rs.map Prod.fst ++ bad :: after))) = .error .indexError) ∧
    ((∃ i, Spec.NamesTest bad i ∧ i.status ≠ "PASSED".toList ∧ i.status ≠ "FAILED".toList ∧ i.status ≠ "ERROR".toList) →
      parseStdout (['\n'].intercalate (pre ++ hd :: (rs.map Prod.fst ++ bad :: after))) = .error .valueError) ∧
    (∀ f t m, Spec.NamesFunction bad "FAILED".toList f t (" - ".toList ++ m) → after = [] → '/' ∉ t →
      ∃ r, parseStdout (['\n'].intercalate (pre ++ hd :: (rs.map Prod.fst ++ bad :: after))) = .ok r ∧
        r.fails = Spec.withStatus "FAILED" (rs.filterMap Prod.snd) ++ [⟨f, t, ['-'], "FAILED".toList⟩]) := by
  have key : parseStdout (['\n'].intercalate (pre ++ hd :: (rs.map Prod.fst ++ bad :: after))) = (do
      let a ← readLine ⟨Spec.withStatus "PASSED" (rs.filterMap Prod.snd),
        Spec.withStatus "FAILED" (rs.filterMap Prod.snd), Spec.withStatus "ERROR" (rs.filterMap Prod.snd)⟩ bad
      after.foldlM readLine a) := by
    unfold parseStdout
    rw [stdout_lines _ (by simp) hn]
    simp only
    rw [summary_idx pre hd _ h1 h2]
    simp only [List.drop_left']
    have hc : hasColons hd = false := by rw [Bool.eq_false_iff, ne_eq, hasColons_iff]; exact h2'
    have e : readLine ⟨[], [], []⟩ hd = .ok ⟨[], [], []⟩ := by unfold readLine; simp [hc]
    rw [List.foldlM_cons, e]
    simp only [bind, Except.bind]
    rw [List.foldlM_append, readLines rs h3]
    simp only [bind, Except.bind, List.foldlM_cons, Results.append, List.nil_append]
  rw [key]
  refine ⟨?_, ?_, ?_⟩
  · rintro ⟨s, f, t, h⟩
    obtain ⟨hc, hp, -⟩ := parseLine_function h
    unfold readLine
    simp [hc, hp rfl, bind, Except.bind]
  · rintro ⟨i, h, n1, n2, n3⟩
    obtain ⟨hc, hp⟩ := parseLine_names h
    unfold readLine
    simp only [hc, if_true, hp, bind, Except.bind, if_neg n1, if_neg n2, if_neg n3]
  · rintro f t m h rfl hs
    obtain ⟨hc, -, hp⟩ := parseLine_function h
    have hp := hp m rfl
    have n1 : ("FAILED".toList : List Char) ≠ "PASSED".toList := by decide
    unfold readLine
    simp only [hc, if_true, hp, bind, Except.bind, if_neg n1, pure, Except.pure, List.foldlM_nil]
    exact ⟨_, rfl, by rw [basename_clean hs]⟩

/-- The hypotheses of `C102_parse` are met by an output with a passed test of a class, a failed test with a parameter and a message, and
lines that name no test. -/
def exOutput : List (List Char × Option Info) := [
  ("PASSED tests/unit_tests/test_boundary.py::TestBoundary::test_split".toList,
    some ⟨"tests/unit_tests/test_boundary.py".toList, "TestBoundary".toList, "test_split".toList, "PASSED".toList⟩),
  ("FAILED test_mesh.py::test_mesh_values[grf.json] - AssertionError: a::b".toList,
    some ⟨"test_mesh.py".toList, "test_mesh_values".toList, "grf.json".toList, "FAILED".toList⟩),
  ("=== 1 failed, 1 passed in 0.1s ===".toList, none)]

theorem cleanPart_iff (w : List Char) : Spec.CleanPart w ↔ w ≠ [] ∧ w.all (fun c => !isSpace c && c != '[' && c != ']' && c != ':') = true := by
  unfold Spec.CleanPart
  simp [and_assoc]

example : Spec.SummaryLines exOutput := by
  intro p hp
  simp only [exOutput, List.mem_cons, List.not_mem_nil, or_false] at hp
  rcases hp with rfl | rfl | rfl
  · refine Or.inr ⟨_, rfl, ⟨?_, ?_, ?_, by decide, ?_, "::".toList, [], Or.inl rfl, Or.inl rfl, by decide⟩, Or.inl rfl⟩ <;>
      exact (cleanPart_iff _).2 (by decide)
  · refine Or.inr ⟨_, rfl, ⟨?_, ?_, ?_, by decide, ?_, "[".toList, "] - AssertionError: a::b".toList, Or.inr rfl,
      Or.inr ⟨']', " - AssertionError: a::b".toList, by decide, by decide⟩, by decide⟩, Or.inr (Or.inl rfl)⟩ <;>
      exact (cleanPart_iff _).2 (by decide)
  · exact Or.inl ⟨rfl, by decide⟩

example : Spec.Heading "=== short test summary info ===".toList ∧ ¬ [':', ':'] <:+: "=== short test summary info ===".toList := by
  refine ⟨?_, by decide⟩
  exact ⟨"=== ".toList, " ===".toList, by decide⟩

example : Spec.NamesFunction "PASSED test_utils.py::test_round".toList "PASSED".toList "test_utils.py".toList "test_round".toList [] := by
  refine ⟨?_, ?_, ?_, by decide⟩ <;> exact (cleanPart_iff _).2 (by decide)

/-! ## C103: which tests are run -/

/-- A table selects a test for the changed files: the last component of one of them is a key with this test. -/
def Spec.Selects (table : TestTable) (files : List (List Char)) (t : List Char) : Prop :=
  ∃ f ∈ files, ∃ name l, Spec.LastPart f name ∧ (name, l) ∈ table ∧ t ∈ l

/-- How python lists a set: without repetition, in any order. -/
def Spec.ListsSet (order : List (List Char) → List (List Char)) : Prop := ∀ l, (order l).Nodup ∧ ∀ x, x ∈ order l ↔ x ∈ l

/-- Files of tests run one after the other. -/
inductive Spec.Ran (run : Runner) : List (List Char) → State → State → Prop
  | nil (s : State) : Spec.Ran run [] s s
  | cons {t : List Char} {ts : List (List Char)} {s s' : State} {r : Results} :
      parseStdout (run t s.folder).1 = .ok r →
      Spec.Ran run ts ⟨⟨s.results.passes ++ r.passes, s.results.fails ++ r.fails, s.results.errors ++ r.errors⟩, (run t s.folder).2⟩ s' →
      Spec.Ran run (t :: ts) s s'

theorem relevant_iff (table : TestTable) (files : List (List Char)) (t : List Char) :
    t ∈ files.flatMap (fun f => relevantTests f table) ↔ Spec.Selects table files t := by
  unfold relevantTests Spec.Selects
  simp only [List.mem_flatMap]
  constructor
  · rintro ⟨f, hf, ⟨n, l⟩, hp, ht⟩
    simp only at ht
    split_ifs at ht with h
    · exact ⟨f, hf, n, l, (basename_iff f n).1 h.symm, hp, ht⟩
    · simp at ht
  · rintro ⟨f, hf, n, l, hn, hp, ht⟩
    refine ⟨f, hf, (n, l), hp, ?_⟩
    simp only
    rw [if_pos ((basename_iff f n).2 hn).symm]
    exact ht

theorem runAll (run : Runner) (ts : List (List Char)) (s : State) :
    (∀ s', ts.foldlM (runOne run) s = .ok s' → Spec.Ran run ts s s') ∧
    ∀ e, ts.foldlM (runOne run) s = .error e → ∃ t ∈ ts, ∃ folder, parseStdout (run t folder).1 = .error e := by
  induction ts generalizing s with
  | nil =>
    refine ⟨fun s' h => ?_, fun e h => by cases h⟩
    cases h
    exact .nil s
  | cons t ts ih =>
    rw [List.foldlM_cons]
    rcases hp : parseStdout (run t s.folder).1 with e | r
    · have e1 : runOne run s t = .error e := by unfold runOne; simp [hp, bind, Except.bind]
      rw [e1]
      refine ⟨fun s' h => (by cases h), fun e' h => ?_⟩
      cases h
      exact ⟨t, by simp, s.folder, hp⟩
    · have e1 : runOne run s t = .ok ⟨s.results.append r, (run t s.folder).2⟩ := by unfold runOne; simp [hp, bind, Except.bind, pure, Except.pure]
      rw [e1]
      obtain ⟨h1, h2⟩ := ih ⟨s.results.append r, (run t s.folder).2⟩
      refine ⟨fun s' h => .cons hp (h1 s' h), fun e' h => ?_⟩
      obtain ⟨t', ht', f, hf⟩ := h2 e' h
      exact ⟨t', by simp [ht'], f, hf⟩

/-- **C103**: the files of tests that are run are exactly those that the table has for the last component of a changed path, each once;
their results are put one after the other, and the only exceptions are those of reading their outputs. -/
theorem C103_selected {order : List (List Char) → List (List Char)} (ho : Spec.ListsSet order) (run : Runner) (files : List (List Char)) (table : TestTable)
    (s : State) : ∃ ts : List (List Char), ts.Nodup ∧ (∀ t, t ∈ ts ↔ Spec.Selects table files t) ∧
      (∀ s', runTests order run files table s = .ok s' → Spec.Ran run ts s s') ∧
      ∀ e, runTests order run files table s = .error e → ∃ t, Spec.Selects table files t ∧ ∃ folder, parseStdout (run t folder).1 = .error e := by
  obtain ⟨h1, h2⟩ := ho (files.flatMap (fun f => relevantTests f table))
  have hm : ∀ t, t ∈ order (files.flatMap (fun f => relevantTests f table)) ↔ Spec.Selects table files t :=
    fun t => (h2 t).trans (relevant_iff table files t)
  obtain ⟨r1, r2⟩ := runAll run (order (files.flatMap (fun f => relevantTests f table))) s
  refine ⟨_, h1, hm, r1, fun e h => ?_⟩
  obtain ⟨t, ht, f, hf⟩ := r2 e h
  exact ⟨t, (hm t).1 ht, f, hf⟩

/-- The names of the files of the package that have tests. -/
def Spec.meshFiles : List (List Char) := ["mesh_builder.py", "mesh.py", "neighbour_graph.py", "metadata.py", "aggregated_cellbox.py", "boundary.py",
  "cellbox.py", "direction.py", "environment_mesh.py"].map String.toList

/-- **C103**: the regression tests are run exactly if a file with one of nine names is changed, and then all of them. -/
theorem C103_regression (files : List (List Char)) (t : List Char) : Spec.Selects regressionTable files t ↔
    t = "test_mesh.py".toList ∧ ∃ f ∈ files, ∃ name ∈ Spec.meshFiles, Spec.LastPart f name := by
  have k1 : ∀ p ∈ regressionTable, p.1 ∈ Spec.meshFiles ∧ p.2 = ["test_mesh.py".toList] := by decide +kernel
  have k2 : ∀ n ∈ Spec.meshFiles, (n, ["test_mesh.py".toList]) ∈ regressionTable := by decide +kernel
  unfold Spec.Selects
  constructor
  · rintro ⟨f, hf, n, l, hn, hp, ht⟩
    obtain ⟨h1, h2⟩ := k1 _ hp
    simp only at h2
    rw [h2, List.mem_singleton] at ht
    exact ⟨ht, f, hf, n, h1, hn⟩
  · rintro ⟨rfl, f, hf, n, h1, hn⟩
    exact ⟨f, hf, n, _, hn, k2 n h1, List.mem_singleton.2 rfl⟩

/-- **C103**: no change at all selects a unit test other than seven, so the tests of the validator are never run; and for three of the
files nothing is run. -/
theorem C103_unit (files : List (List Char)) (t : List Char) (h : Spec.Selects unitTable files t) :
    t ∈ ["test_mesh_builder.py", "test_neighbour_graph.py", "test_aggregated_cellbox.py", "test_boundary.py", "test_cellbox.py",
      "test_env_mesh.py", "test_cli.py"].map String.toList ∧
    ∃ f ∈ files, ∃ name ∈ "cli.py".toList :: Spec.meshFiles, Spec.LastPart f name ∧ name ∉ ["mesh.py", "metadata.py", "direction.py"].map String.toList := by
  obtain ⟨f, hf, n, l, hn, hp, ht⟩ := h
  have hk : ∀ p ∈ unitTable, (∀ t ∈ p.2, t ∈ ["test_mesh_builder.py", "test_neighbour_graph.py", "test_aggregated_cellbox.py",
      "test_boundary.py", "test_cellbox.py", "test_env_mesh.py", "test_cli.py"].map String.toList) ∧ p.1 ∈ "cli.py".toList :: Spec.meshFiles ∧
      (p.2 ≠ [] → p.1 ∉ ["mesh.py", "metadata.py", "direction.py"].map String.toList) := by decide +kernel
  obtain ⟨h1, h2, h3⟩ := hk _ hp
  refine ⟨h1 t ht, f, hf, n, h2, hn, h3 ?_⟩
  rintro rfl
  simp at ht

/-- The names of the files that have unit tests, with the tests. -/
def Spec.unitPairs : List (List Char × List Char) := [("mesh_builder.py", "test_mesh_builder.py"), ("neighbour_graph.py", "test_neighbour_graph.py"),
  ("aggregated_cellbox.py", "test_aggregated_cellbox.py"), ("boundary.py", "test_boundary.py"), ("cellbox.py", "test_cellbox.py"),
  ("environment_mesh.py", "test_env_mesh.py"), ("cli.py", "test_cli.py")].map (fun p => (p.1.toList, p.2.toList))

/-- **C103**: for seven names the unit tests of the file are run. -/
theorem C103_unit_tests (files : List (List Char)) (t : List Char) : Spec.Selects unitTable files t ↔
    ∃ f ∈ files, ∃ p ∈ Spec.unitPairs, Spec.LastPart f p.1 ∧ t = p.2 := by
  have k1 : ∀ p ∈ unitTable, ∀ t ∈ p.2, (p.1, t) ∈ Spec.unitPairs := by decide +kernel
  have k2 : ∀ p ∈ Spec.unitPairs, (p.1, [p.2]) ∈ unitTable := by decide +kernel
  constructor
  · rintro ⟨f, hf, n, l, hn, hp, ht⟩
    exact ⟨f, hf, (n, t), k1 _ hp t ht, hn, rfl⟩
  · rintro ⟨f, hf, p, hp, hn, rfl⟩
    exact ⟨f, hf, p.1, [p.2], hn, k2 p hp, List.mem_singleton.2 rfl⟩

/-- **C103**: the whole run.  First the regression tests that the changed files select, then their unit tests, each file of tests
once, as far as they are asked for; the report is on all of them, and what is saved is what the last run left. -/
theorem C103_run {order : List (List Char) → List (List Char)} (ho : Spec.ListsSet order) (run : Runner) (regression unit save : Bool)
    (files : List (List Char)) (res : Results) (sums : List (List ℕ)) (stats : List (List Char × ℕ × ℕ)) (saved : Option Folder)
    (h : automate order run regression unit save files = .ok (res, sums, stats, saved)) :
    ∃ ts1 ts2 s1 s2, ts1.Nodup ∧ ts2.Nodup ∧ (∀ t, t ∈ ts1 ↔ regression = true ∧ Spec.Selects regressionTable files t) ∧
      (∀ t, t ∈ ts2 ↔ unit = true ∧ Spec.Selects unitTable files t) ∧ Spec.Ran run ts1 ⟨⟨[], [], []⟩, []⟩ s1 ∧ Spec.Ran run ts2 s1 s2 ∧
      res = s2.results ∧ stats = testStats order res ∧
      (regression = true → List.Forall₂ (fun n l => summarise (s1.folder.get? n) = .ok l) (s1.folder.keys.filter (fun n => ".json".toList.isSuffixOf n)) sums) ∧
      (save = false → saved = none) ∧ (save = true → ∃ left out, saveTests s2.folder [] = .ok (left, out) ∧ saved = some out) := by
  unfold automate at h
  simp only [bind, Except.bind] at h
  have first : ∀ r, (if regression then runRegression order run files ⟨⟨[], [], []⟩, []⟩ else .ok (⟨⟨[], [], []⟩, []⟩, [])) = .ok r →
      ∃ ts1 : List (List Char), ts1.Nodup ∧ (∀ t, t ∈ ts1 ↔ regression = true ∧ Spec.Selects regressionTable files t) ∧
        Spec.Ran run ts1 ⟨⟨[], [], []⟩, []⟩ r.1 ∧
        (regression = true → List.Forall₂ (fun n l => summarise (r.1.folder.get? n) = .ok l) (r.1.folder.keys.filter (fun n => ".json".toList.isSuffixOf n)) r.2) := by
    intro r hr
    cases regression with
    | false =>
      simp only [Bool.false_eq_true, if_false] at hr
      cases hr
      exact ⟨[], List.nodup_nil, by simp, .nil _, by simp⟩
    | true =>
      simp only [if_true] at hr
      unfold runRegression at hr
      obtain ⟨ts, t1, t2, t3, -⟩ := C103_selected ho run files regressionTable ⟨⟨[], [], []⟩, []⟩
      cases hs : runTests order run files regressionTable ⟨⟨[], [], []⟩, []⟩ with
      | error e => rw [hs] at hr; cases hr
      | ok s =>
        rw [hs] at hr
        simp only [bind, Except.bind] at hr
        cases hl : (s.folder.keys.filter (fun n => ".json".toList.isSuffixOf n)).mapM (fun n => summarise (s.folder.get? n)) with
        | error e => rw [hl] at hr; cases hr
        | ok l =>
          rw [hl] at hr
          cases hr
          exact ⟨ts, t1, fun t => (t2 t).trans (by simp), t3 _ hs, fun _ => mapM_ok_iff.1 hl⟩
  cases h1 : (if regression then runRegression order run files ⟨⟨[], [], []⟩, []⟩ else .ok (⟨⟨[], [], []⟩, []⟩, [])) with
  | error e => rw [h1] at h; cases h
  | ok r =>
    rw [h1] at h
    obtain ⟨ts1, a1, a2, a3, a4⟩ := first r h1
    simp only at h
    cases h2 : (if unit then runTests order run files unitTable r.1 else .ok r.1) with
    | error e => rw [h2] at h; cases h
    | ok s2 =>
      rw [h2] at h
      simp only at h
      have second : ∃ ts2 : List (List Char), ts2.Nodup ∧ (∀ t, t ∈ ts2 ↔ unit = true ∧ Spec.Selects unitTable files t) ∧ Spec.Ran run ts2 r.1 s2 := by
        cases unit with
        | false =>
          simp only [Bool.false_eq_true, if_false] at h2
          cases h2
          exact ⟨[], List.nodup_nil, by simp, .nil _⟩
        | true =>
          simp only [if_true] at h2
          obtain ⟨ts, t1, t2, t3, -⟩ := C103_selected ho run files unitTable r.1
          exact ⟨ts, t1, fun t => (t2 t).trans (by simp), t3 _ h2⟩
      obtain ⟨ts2, b1, b2, b3⟩ := second
      refine ⟨ts1, ts2, r.1, s2, a1, b1, a2, b2, a3, b3, ?_⟩
      cases save with
      | false =>
        simp only [Bool.false_eq_true, if_false, pure, Except.pure] at h
        cases h
        exact ⟨rfl, rfl, a4, fun _ => rfl, by simp⟩
      | true =>
        simp only [if_true] at h
        cases h3 : saveTests s2.folder [] with
        | error e => rw [h3] at h; cases h
        | ok o =>
          rw [h3] at h
          cases h
          exact ⟨rfl, rfl, a4, by simp, fun _ => ⟨o.1, o.2, rfl, rfl⟩⟩

/-- **C103**: if no changed file has one of the ten names, the automater runs nothing and ends without any complaint. -/
theorem C103_elsewhere {order : List (List Char) → List (List Char)} (ho : Spec.ListsSet order) (run : Runner) (regression unit : Bool)
    (files : List (List Char)) (h : ∀ f ∈ files, ∀ name ∈ "cli.py".toList :: Spec.meshFiles, ¬ Spec.LastPart f name) :
    automate order run regression unit true files = .ok (⟨[], [], []⟩, [], [], some []) := by
  have empty : ∀ (l : List (List Char)), (∀ x, x ∉ l) → order l = [] := by
    intro l hl
    rw [List.eq_nil_iff_forall_not_mem]
    intro x hx
    exact hl x (((ho l).2 x).1 hx)
  have e1 : ∀ s, runTests order run files regressionTable s = .ok s := by
    intro s
    unfold runTests
    rw [empty _ (fun x hx => ?_)]
    · rfl
    · obtain ⟨-, f, hf, n, hn, hl⟩ := (C103_regression files x).1 ((relevant_iff _ _ _).1 hx)
      exact h f hf n (by simp [hn]) hl
  have e2 : ∀ s, runTests order run files unitTable s = .ok s := by
    intro s
    unfold runTests
    rw [empty _ (fun x hx => ?_)]
    · rfl
    · obtain ⟨-, f, hf, n, hn, hl, -⟩ := C103_unit files x ((relevant_iff _ _ _).1 hx)
      exact h f hf n hn hl
  have e3 : testStats order ⟨[], [], []⟩ = [] := by
    unfold testStats
    simp [empty [] (by simp)]
  unfold automate runRegression
  cases regression <;> cases unit <;>
    simp [e1, e2, e3, bind, Except.bind, pure, Except.pure, Dict.keys, saveTests]

/-- A change of a data loader, of the helper functions and of the tests themselves. -/
example : ∀ f ∈ ["meshiphi/dataloaders/scalar/gebco.py", "meshiphi/utils.py", "tests/regression_tests/test_mesh.py"].map String.toList,
    ∀ name ∈ "cli.py".toList :: Spec.meshFiles, ¬ Spec.LastPart f name := by
  intro f hf name hn h
  have := (basename_iff f name).2 h
  clear h
  revert f name
  decide +kernel

example : Spec.Selects unitTable ["docs/boundary.py".toList] "test_boundary.py".toList :=
  ⟨_, List.mem_singleton.2 rfl, "boundary.py".toList, ["test_boundary.py".toList], (basename_iff _ _).1 (by decide), by decide +kernel, by decide +kernel⟩

theorem stats_fold (l : List Info) : ∀ d : Dict (List Char) (List (List Char)), (∀ t ∈ l, t.file ∈ d.map Prod.fst) →
    (l.foldl (fun d t => d.set t.file ((d.get? t.file).getD [] ++ [t.status])) d).map Prod.fst = d.map Prod.fst ∧
    ∀ f, (l.foldl (fun d t => d.set t.file ((d.get? t.file).getD [] ++ [t.status])) d).get? f =
      (d.get? f).map (· ++ (l.filter (fun t => t.file = f)).map Info.status) := by
  induction l with
  | nil =>
    intro d _
    refine ⟨rfl, fun f => ?_⟩
    cases h : d.get? f <;> simp [h]
  | cons t l ih =>
    intro d h
    have hm := h t (by simp)
    have ek : (d.set t.file ((d.get? t.file).getD [] ++ [t.status])).map Prod.fst = d.map Prod.fst := by rw [Dict.keys_set, if_pos hm]
    obtain ⟨h1, h2⟩ := ih (d.set t.file ((d.get? t.file).getD [] ++ [t.status])) (fun t' ht' => by rw [ek]; exact h t' (by simp [ht']))
    rw [List.foldl_cons]
    refine ⟨h1.trans ek, fun f => ?_⟩
    rw [h2, Dict.get?_set]
    by_cases hf : t.file = f
    · subst hf
      have hs : (d.get? t.file).isSome := (Dict.mem_keys_iff d t.file).1 hm
      obtain ⟨v, hv⟩ := Option.isSome_iff_exists.1 hs
      simp [hv]
    · simp [hf]

theorem mem_iff_get?_nodup {K V : Type} [DecidableEq K] (d : Dict K V) (hn : (d.map Prod.fst).Nodup) (k : K) (v : V) : (k, v) ∈ d ↔ d.get? k = some v := by
  induction d with
  | nil => simp
  | cons p r ih =>
    obtain ⟨k', v'⟩ := p
    simp only [List.map_cons, List.nodup_cons] at hn
    simp only [List.mem_cons, Prod.mk.injEq, Dict.get?]
    by_cases h : k' = k
    · subst h
      simp only [true_and, if_true, Option.some.injEq]
      constructor
      · rintro (h | h)
        · exact h.symm
        · exact absurd (List.mem_map_of_mem (f := Prod.fst) h) hn.1
      · intro h; exact Or.inl h.symm
    · simp only [h, if_false, ← ih hn.2]
      constructor
      · rintro (⟨h', -⟩ | h')
        · exact absurd h'.symm h
        · exact h'
      · exact Or.inr

/-- **C103**: every file with tests is reported once, with the number of its tests and of those that passed. -/
theorem C103_stats {order : List (List Char) → List (List Char)} (ho : Spec.ListsSet order) (r : Results) :
    ((testStats order r).map Prod.fst).Nodup ∧
    ∀ f p n, (f, p, n) ∈ testStats order r ↔ (∃ i ∈ r.passes ++ r.fails ++ r.errors, i.file = f) ∧
      p = ((r.passes ++ r.fails ++ r.errors).filter (fun i => i.file = f ∧ i.status = "PASSED".toList)).length ∧
      n = ((r.passes ++ r.fails ++ r.errors).filter (fun i => i.file = f)).length := by
  obtain ⟨o1, o2⟩ := ho ((r.passes ++ r.fails ++ r.errors).map Info.file)
  obtain ⟨h1, h2⟩ := stats_fold (r.passes ++ r.fails ++ r.errors)
    ((order ((r.passes ++ r.fails ++ r.errors).map Info.file)).map (fun f => (f, []))) (by
      intro t ht
      simp only [List.map_map, Function.comp_def, List.map_id']
      exact (o2 _).2 (List.mem_map_of_mem ht))
  have hget : ∀ (l : List (List Char)) f, Dict.get? (l.map (fun f => (f, ([] : List (List Char))))) f = if f ∈ l then some [] else none := by
    intro l f
    induction l with
    | nil => rfl
    | cons a l ih =>
      simp only [List.map_cons, Dict.get?, List.mem_cons]
      by_cases h : a = f
      · simp [h]
      · rw [if_neg h, ih]
        have h' : ¬ f = a := fun e => h e.symm
        simp only [h', false_or]
  generalize hall : r.passes ++ r.fails ++ r.errors = all at *
  have hn := o1
  rw [show order (all.map Info.file) = ((order (all.map Info.file)).map (fun f => (f, ([] : List (List Char))))).map Prod.fst by
    simp [Function.comp_def], ← h1] at hn
  unfold testStats
  rw [hall]
  refine ⟨by simpa [Function.comp_def] using hn, fun f p n => ?_⟩
  simp only [List.mem_map, Prod.mk.injEq, Prod.exists]
  constructor
  · rintro ⟨f', v, hv, rfl, rfl, rfl⟩
    rw [mem_iff_get?_nodup _ hn, h2, hget] at hv
    split_ifs at hv with hf
    · simp only [Option.map_some, List.nil_append, Option.some.injEq] at hv
      have := (o2 f').1 hf
      rw [List.mem_map] at this
      refine ⟨this, ?_, ?_⟩
      · rw [← hv, List.count, List.countP_map, List.countP_eq_length_filter, List.filter_filter]
        congr 2
        funext i
        rw [Bool.eq_iff_iff]
        simp only [Bool.and_eq_true, decide_eq_true_eq, beq_iff_eq, Function.comp_apply]
        exact and_comm
      · rw [← hv, List.length_map]
    · cases hv
  · rintro ⟨hf, rfl, rfl⟩
    refine ⟨f, (all.filter (fun t => t.file = f)).map Info.status, ?_, rfl, ?_, by rw [List.length_map]⟩
    · rw [mem_iff_get?_nodup _ hn, h2, hget, if_pos ((o2 f).2 (List.mem_map.2 hf))]
      simp
    · rw [List.count, List.countP_map, List.countP_eq_length_filter, List.filter_filter]
      congr 2
      funext i
      rw [Bool.eq_iff_iff]
      simp only [Bool.and_eq_true, decide_eq_true_eq, beq_iff_eq, Function.comp_apply]
      exact and_comm

/-! ## C105: which files count as changed -/

theorem flat_lines (l : List (List Char)) (h : ∀ p ∈ l, p ≠ [] ∧ '\n' ∉ p) : diffFiles (l.flatMap (fun p => p ++ ['\n'])) = l := by
  unfold diffFiles
  induction l with
  | nil => rfl
  | cons p l ih =>
    obtain ⟨h1, h2⟩ := h p (by simp)
    rw [List.flatMap_cons, List.append_assoc, List.singleton_append, List.splitOn_append_cons_self_of_not_mem h2,
      List.filter_cons_of_pos (by simpa using h1), ih (fun q hq => h q (by simp [hq]))]

/-- **C105**: with only a branch to compare with, the files listed are those whose content in the working tree differs from that branch
(`main` by default); with a branch to test as well, they are those that the branch to compare *with* changed since the two parted. -/
theorem C105_listed (r : Repo) (hr : ∀ p ∈ r.paths, p ≠ [] ∧ '\n' ∉ p) (into : Option (List Char)) (p : List Char) :
    (p ∈ diffFiles (gitOutput r (diffCommand none into)) ↔ p ∈ r.paths ∧ r.tip (into.getD "main".toList) p ≠ r.worktree p) ∧
    ∀ b, b ≠ [] → (p ∈ diffFiles (gitOutput r (diffCommand (some b) into)) ↔
      p ∈ r.paths ∧ r.mergeBase b (into.getD "main".toList) p ≠ r.tip (into.getD "main".toList) p) := by
  have hf : ∀ q : List Char → Bool, ∀ p ∈ r.paths.filter q, p ≠ [] ∧ '\n' ∉ p := fun q p hp => hr p (List.mem_filter.1 hp).1
  refine ⟨?_, fun b hb => ?_⟩
  · simp only [diffCommand, gitOutput, List.cons_append, List.nil_append]
    rw [flat_lines _ (hf _), List.mem_filter]
    simp
  · simp only [diffCommand, gitOutput, List.cons_append, List.nil_append, if_neg hb]
    rw [flat_lines _ (hf _), List.mem_filter]
    simp

/-- **C105 is false as documented**: what the branch to be tested changed does not matter.  If the branch to compare with did not
move since they parted, no test is run, whatever the tested branch contains. -/
theorem C105_branch_false {order : List (List Char) → List (List Char)} (ho : Spec.ListsSet order) (run : Runner) (regression unit : Bool) (r : Repo)
    (hr : ∀ p ∈ r.paths, p ≠ [] ∧ '\n' ∉ p) (b : List Char) (hb : b ≠ []) (into : Option (List Char))
    (hm : ∀ p, r.mergeBase b (into.getD "main".toList) p = r.tip (into.getD "main".toList) p) :
    automate order run regression unit true (diffFiles (gitOutput r (diffCommand (some b) into))) = .ok (⟨[], [], []⟩, [], [], some []) := by
  apply C103_elsewhere ho
  intro f hf
  exact absurd (hm f) (((C105_listed r hr into f).2 b hb).1 hf).2

/-- A branch that changes `mesh.py`, cut from the present `main`. -/
def exRepo : Repo where
  paths := ["meshiphi/mesh_generation/mesh.py".toList]
  worktree := fun _ => some "old".toList
  tip := fun b _ => if b = "main".toList then some "old".toList else some "new".toList
  mergeBase := fun _ _ _ => some "old".toList

example : (∀ p ∈ exRepo.paths, p ≠ [] ∧ '\n' ∉ p) ∧ (∀ p, exRepo.mergeBase "topic".toList "main".toList p = exRepo.tip "main".toList p) ∧
    ∀ p, exRepo.tip "topic".toList p ≠ exRepo.mergeBase "topic".toList "main".toList p := by
  refine ⟨by decide +kernel, fun p => ?_, fun p => ?_⟩
  · simp [exRepo]
  · simp only [exRepo]; decide +kernel

/-- If `main` moved instead, its own changes are tested. -/
example : diffFiles (gitOutput { exRepo with tip := fun _ _ => some "newer".toList } (diffCommand (some "topic".toList) none)) =
    ["meshiphi/mesh_generation/mesh.py".toList] := by decide +kernel

/-! ## C104: which outputs of the regression tests are kept -/

/-- A name with the ending `.json`, and something other than dots before it. -/
def Spec.JsonFile (base name : List Char) : Prop := name = base ++ ".json".toList ∧ ∃ c ∈ base, c ≠ '.'

theorem splitext_json (name : List Char) :
    ((splitext name).2 = ".json".toList → Spec.JsonFile (splitext name).1 name) ∧
    ∀ base, Spec.JsonFile base name → splitext name = (base, ".json".toList) := by
  have h := (afterLast_iff '.' name _).1 rfl
  constructor
  · intro he
    unfold splitext at he ⊢
    simp only at he ⊢
    split_ifs at he ⊢ with hc
    · obtain ⟨h1, h2 | ⟨d, h2⟩⟩ := h
      · rw [h2] at hc; exact absurd hc.1 h1
      · have hx : (name.reverse.takeWhile (· ≠ '.')).reverse = "json".toList := by
          have := List.cons.inj he
          exact this.2
        refine ⟨?_, hc.2⟩
        rw [hx] at h2 ⊢
        rw [h2]
        simp
    · simp at he
  · rintro base ⟨rfl, hb⟩
    have hx : ((base ++ ".json".toList).reverse.takeWhile (· ≠ '.')).reverse = "json".toList :=
      (afterLast_iff '.' _ _).2 ⟨by decide, Or.inr ⟨base, rfl⟩⟩
    unfold splitext
    simp only [hx]
    have ht : (base ++ ".json".toList).take ((base ++ ".json".toList).length - "json".toList.length - 1) = base := by simp
    rw [ht, if_pos ⟨by simp, hb⟩]
    simp

/-- What the comparison of two meshes supposes: both have cells, with different geometries, attributes of the same kind and one node each. -/
structure Spec.Comparable (old new : EnvMesh) : Prop where
  old_ne : old.cells ≠ []
  new_ne : new.cells ≠ []
  old_nodup : ((old.cells.map Compare.ofCell).map Compare.JCell.geometry).Nodup
  new_nodup : ((new.cells.map Compare.ofCell).map Compare.JCell.geometry).Nodup
  kinds : ∀ k, Spec.HasColumn (old.cells.map Compare.ofCell) k → Spec.HasColumn (new.cells.map Compare.ofCell) k →
    (Spec.NumberColumn (old.cells.map Compare.ofCell) k ↔ Spec.NumberColumn (new.cells.map Compare.ofCell) k)
  nodes : (new.graph.nodes.map Prod.fst).Nodup

/-- What counts as unchanged: the new mesh has no cell that the old one lacks, and for the cells and nodes of both the attributes that
both meshes have agree (numbers to four digits), the names of the attributes are the same, and the neighbours are. -/
structure Spec.Unchanged (old new : EnvMesh) : Prop where
  cells : ∀ p, Spec.HasGeometry new.cells p → Spec.HasGeometry old.cells p
  numbers : ∀ g c1 c2 k, Spec.CellWith (old.cells.map Compare.ofCell) g c1 → Spec.CellWith (new.cells.map Compare.ofCell) g c2 →
    Spec.HasColumn (old.cells.map Compare.ofCell) k → Spec.HasColumn (new.cells.map Compare.ofCell) k →
    Spec.NumberColumn (old.cells.map Compare.ofCell) k → Spec.Agree (Spec.number c1 k) (Spec.number c2 k)
  plain : ∀ g c1 c2 k, Spec.CellWith (old.cells.map Compare.ofCell) g c1 → Spec.CellWith (new.cells.map Compare.ofCell) g c2 →
    Spec.HasColumn (old.cells.map Compare.ofCell) k → Spec.HasColumn (new.cells.map Compare.ofCell) k →
    Spec.PlainColumn (old.cells.map Compare.ofCell) k → Spec.number c1 k = Spec.number c2 k ∧ Spec.text c1 k = Spec.text c2 k
  names : ∀ g c1 c2, Spec.CellWith (old.cells.map Compare.ofCell) g c1 → Spec.CellWith (new.cells.map Compare.ofCell) g c2 →
    c1.entries.keys = c2.entries.keys
  neighbours : ∀ c ∈ new.cells, ∀ a b, old.graph.nodes.get? c.id = some a → new.graph.nodes.get? c.id = some b → ∀ d, (a d).Perm (b d)

theorem compareMeshes_iff {old new : EnvMesh} (h : Spec.Comparable old new) :
    ∃ c, compareMeshes old new = .ok c ∧ (c.identical = true ↔ Spec.Unchanged old new) := by
  obtain ⟨rows, hr, hrows⟩ := C46_reports old.cells new.cells h.old_ne h.new_ne
  obtain ⟨l, hl, -, hvals⟩ := C75_reports_partial (m1 := old.cells.map Compare.ofCell) (m2 := new.cells.map Compare.ofCell)
    (by simpa using h.old_ne) (by simpa using h.new_ne) h.old_nodup h.new_nodup h.kinds
  have hf : ∃ f, Validation.frame new.cells = .ok f := by unfold Validation.frame; rw [if_neg h.new_ne]; exact ⟨_, rfl⟩
  obtain ⟨f, hf⟩ := hf
  refine ⟨⟨rows, l, Compare.compareAttributes (old.cells.map Compare.ofCell) (new.cells.map Compare.ofCell), Validation.compareGraphs old new⟩, ?_, ?_⟩
  · unfold compareMeshes
    simp only [hf, hr, hl, bind, Except.bind, pure, Except.pure]
  · unfold Comparison.identical
    simp only [Bool.and_eq_true, List.isEmpty_iff]
    have a1 : rows = [] ↔ ∀ p, Spec.HasGeometry new.cells p → Spec.HasGeometry old.cells p := by
      rw [List.eq_nil_iff_forall_not_mem]
      constructor
      · intro h p hp
        by_contra hn
        obtain ⟨d, hd⟩ := (hrows p).2 ⟨hp, hn⟩
        exact h _ hd
      · rintro h ⟨p, d⟩ hp
        obtain ⟨x, y⟩ := (hrows p).1 ⟨d, hp⟩
        exact y (h p x)
    have a2 : l = [] ↔ ∀ g, g ∉ l.map Compare.JCell.geometry := by
      rw [← List.eq_nil_iff_forall_not_mem, List.map_eq_nil_iff]
    have a3 : Compare.compareAttributes (old.cells.map Compare.ofCell) (new.cells.map Compare.ofCell) = [] ↔
        ∀ c2, ¬ (c2 ∈ new.cells.map Compare.ofCell ∧ ∃ c1, Spec.CellWith (old.cells.map Compare.ofCell) c2.geometry c1 ∧ c1.entries.keys ≠ c2.entries.keys) := by
      rw [List.eq_nil_iff_forall_not_mem]
      exact forall_congr' fun c2 => not_congr (C76_attributes_partial h.new_nodup c2)
    have a4 : Validation.compareGraphs old new = [] ↔ ∀ c, ¬ (c ∈ new.cells ∧ ∃ a b, old.graph.nodes.get? c.id = some a ∧
        new.graph.nodes.get? c.id = some b ∧ ∃ d, ¬ (a d).Perm (b d)) := by
      rw [List.eq_nil_iff_forall_not_mem]
      exact forall_congr' fun c => not_congr (C57_graph_comparison old new c h.nodes)
    rw [a1, a2, a3, a4]
    constructor
    · rintro ⟨⟨⟨h1, h2⟩, h3⟩, h4⟩
      refine ⟨h1, ?_, ?_, ?_, ?_⟩
      · intro g c1 c2 k g1 g2 k1 k2 k3
        by_contra hn
        exact h2 g ((hvals g).2 ⟨c1, c2, g1, g2, k, k1, k2, Or.inl ⟨k3, hn⟩⟩)
      · intro g c1 c2 k g1 g2 k1 k2 k3
        by_contra hn
        exact h2 g ((hvals g).2 ⟨c1, c2, g1, g2, k, k1, k2, Or.inr ⟨k3, hn⟩⟩)
      · intro g c1 c2 g1 g2
        by_contra hn
        exact h3 c2 ⟨g2.1, c1, by rw [g2.2]; exact g1, hn⟩
      · intro c hc a b ha hb d
        by_contra hn
        exact h4 c ⟨hc, a, b, ha, hb, d, hn⟩
    · rintro ⟨h1, h2, h2', h3, h4⟩
      refine ⟨⟨⟨h1, ?_⟩, ?_⟩, ?_⟩
      · intro g hg
        obtain ⟨c1, c2, g1, g2, k, k1, k2, ⟨k3, hn⟩ | ⟨k3, hn⟩⟩ := (hvals g).1 hg
        · exact hn (h2 g c1 c2 k g1 g2 k1 k2 k3)
        · exact hn (h2' g c1 c2 k g1 g2 k1 k2 k3)
      · rintro c2 ⟨hc, c1, g1, hn⟩
        exact hn (h3 c2.geometry c1 c2 g1 ⟨hc, rfl⟩)
      · rintro c ⟨hc, a, b, ha, hb, d, hn⟩
        exact hn (h4 c hc a b ha hb d)

/-- The outputs of regression tests: a file with the ending `.json` holds two meshes that can be compared. -/
def Spec.Outputs (folder : Folder) : Prop := (folder.map Prod.fst).Nodup ∧
  ∀ base name f, Spec.JsonFile base name → folder.get? name = some f → ∃ a b, f = .meshes (some a) (some b) ∧ Spec.Comparable a b

/-- The file and its plot belong to an output whose mesh is unchanged, or to one whose mesh is changed. -/
def Spec.Belongs (folder : Folder) (unchanged : Prop → Prop) (name : List Char) : Prop :=
  ∃ base a b, (∃ c ∈ base, c ≠ '.') ∧ folder.get? (base ++ ".json".toList) = some (.meshes (some a) (some b)) ∧ unchanged (Spec.Unchanged a b) ∧
    (name = base ++ ".json".toList ∨ name = base ++ ".svg".toList)

/-- The same for an output among `ns`. -/
def BelongsTo (folder : Folder) (unchanged : Prop → Prop) (ns : List (List Char)) (name : List Char) : Prop :=
  ∃ base a b, (base ++ ".json".toList ∈ ns) ∧ (∃ c ∈ base, c ≠ '.') ∧ folder.get? (base ++ ".json".toList) = some (.meshes (some a) (some b)) ∧
    unchanged (Spec.Unchanged a b) ∧ (name = base ++ ".json".toList ∨ name = base ++ ".svg".toList)

theorem base_inj {a b x : List Char} (h : x = a ++ ".json".toList ∨ x = a ++ ".svg".toList) (h' : x = b ++ ".json".toList ∨ x = b ++ ".svg".toList) : a = b := by
  have no : ∀ a b : List Char, a ++ ".json".toList ≠ b ++ ".svg".toList := by
    intro a b e
    have := congrArg (fun l => l.getLast?) e
    simp at this
  rcases h with rfl | rfl <;> rcases h' with h' | h'
  · exact List.append_cancel_right h'
  · exact absurd h' (no _ _)
  · exact absurd h'.symm (no _ _)
  · exact List.append_cancel_right h'

open Classical in
theorem saveLoop (folder : Folder) (hf : Spec.Outputs folder) (ns : List (List Char)) : ∀ (l o : Folder), ns.Nodup →
    (∀ n ∈ ns, n ∈ folder.map Prod.fst) →
    (∀ base, base ++ ".json".toList ∈ ns → l.get? (base ++ ".json".toList) = folder.get? (base ++ ".json".toList) ∧
      l.get? (base ++ ".svg".toList) = folder.get? (base ++ ".svg".toList)) →
    ∃ l' o', ns.foldlM saveOne (l, o) = .ok (l', o') ∧
      (∀ name, l'.get? name = if BelongsTo folder id ns name then none else l.get? name) ∧
      ∀ name, o'.get? name = if BelongsTo folder Not ns name ∧ (folder.get? name).isSome then folder.get? name else o.get? name := by
  induction ns with
  | nil =>
    intro l o _ _ _
    refine ⟨l, o, rfl, fun name => ?_, fun name => ?_⟩
    · rw [if_neg]; rintro ⟨base, a, b, h, -⟩; simp at h
    · rw [if_neg]; rintro ⟨⟨base, a, b, h, -⟩, -⟩; simp at h
  | cons n ns ih =>
    intro l o hn hk hl
    rw [List.nodup_cons] at hn
    rw [List.foldlM_cons]
    by_cases hj : (splitext n).2 = ".json".toList
    · obtain ⟨e1, e2⟩ := (splitext_json n).1 hj
      generalize hbase : (splitext n).1 = base at e1 e2
      obtain ⟨f, hff⟩ : ∃ f, folder.get? n = some f := Option.isSome_iff_exists.1 ((Dict.mem_keys_iff folder n).1 (hk n (by simp)))
      obtain ⟨a, b, rfl, hab⟩ := hf.2 base n f ⟨e1, e2⟩ hff
      obtain ⟨l1, l2⟩ := hl base (by rw [← e1]; exact List.mem_cons_self)
      obtain ⟨c, hc, hid⟩ := compareMeshes_iff hab
      have hx : extractMeshes (l.get? (base ++ ".json".toList)) = .ok (a, b) := by rw [l1, ← e1, hff]; rfl
      have hfb : folder.get? (base ++ ".json".toList) = some (.meshes (some a) (some b)) := by rw [← e1]; exact hff
      -- an output of the rest has another base
      have other : ∀ base' name, base' ++ ".json".toList ∈ ns → (name = base ++ ".json".toList ∨ name = base ++ ".svg".toList) →
          ¬ (name = base' ++ ".json".toList ∨ name = base' ++ ".svg".toList) := by
        intro base' name h1 h2 h3
        rw [← base_inj h2 h3, ← e1] at h1
        exact hn.1 h1
      have split : ∀ (u : Prop → Prop) name, BelongsTo folder u (n :: ns) name ↔
          (u (Spec.Unchanged a b) ∧ (name = base ++ ".json".toList ∨ name = base ++ ".svg".toList)) ∨ BelongsTo folder u ns name := by
        intro u name
        constructor
        · rintro ⟨base', a', b', h1, h2, h3, h4, h5⟩
          rcases List.mem_cons.1 h1 with h1 | h1
          · rw [e1] at h1
            have hbb := List.append_cancel_right h1
            subst hbb
            rw [hfb] at h3
            simp only [Option.some.injEq, File.meshes.injEq] at h3
            obtain ⟨rfl, rfl⟩ := h3
            exact Or.inl ⟨h4, h5⟩
          · exact Or.inr ⟨base', a', b', h1, h2, h3, h4, h5⟩
        · rintro (⟨h1, h2⟩ | ⟨base', a', b', h1, h2, h3, h4, h5⟩)
          · exact ⟨base, a, b, by rw [← e1]; exact List.mem_cons_self, e2, hfb, h1, h2⟩
          · exact ⟨base', a', b', List.mem_cons_of_mem _ h1, h2, h3, h4, h5⟩
      by_cases hu : Spec.Unchanged a b
      · have e : saveOne (l, o) n = .ok ((l.del (base ++ ".json".toList)).del (base ++ ".svg".toList), o) := by
          unfold saveOne
          simp only [hj, ne_eq, not_true_eq_false, if_false, hbase, hx, hc, hid.2 hu, bind, Except.bind, if_true, pure, Except.pure]
        rw [e]
        obtain ⟨l', o', r1, r2, r3⟩ := ih ((l.del (base ++ ".json".toList)).del (base ++ ".svg".toList)) o hn.2 (fun m hm => hk m (List.mem_cons_of_mem _ hm)) (by
          intro base' hb'
          rw [Dict.get?_del, Dict.get?_del, Dict.get?_del, Dict.get?_del]
          have n1 := other base' (base' ++ ".json".toList) hb'
          have n2 := other base' (base' ++ ".svg".toList) hb'
          rw [if_neg, if_neg, if_neg, if_neg]
          · exact hl base' (List.mem_cons_of_mem _ hb')
          · intro e; exact n2 (Or.inl e.symm) (Or.inr rfl)
          · intro e; exact n2 (Or.inr e.symm) (Or.inr rfl)
          · intro e; exact n1 (Or.inl e.symm) (Or.inl rfl)
          · intro e; exact n1 (Or.inr e.symm) (Or.inl rfl))
        refine ⟨l', o', r1, fun name => ?_, fun name => ?_⟩
        · rw [r2, Dict.get?_del, Dict.get?_del]
          simp only [split, id]
          by_cases h1 : base ++ ".svg".toList = name
          · rw [if_pos h1, if_pos (Or.inl ⟨hu, Or.inr h1.symm⟩), ite_self]
          · by_cases h2 : base ++ ".json".toList = name
            · rw [if_neg h1, if_pos h2, if_pos (Or.inl ⟨hu, Or.inl h2.symm⟩), ite_self]
            · have : ¬ (name = base ++ ".json".toList ∨ name = base ++ ".svg".toList) := by
                rintro (h | h)
                · exact h2 h.symm
                · exact h1 h.symm
              simp only [this, and_false, false_or, h1, h2, if_false]
        · rw [r3]
          simp only [split, hu, not_true_eq_false, false_and, false_or]
      · have hid' : c.identical = false := by rw [Bool.eq_false_iff]; intro h; exact hu (hid.1 h)
        obtain ⟨o1, ho1, hget⟩ : ∃ o1, saveOne (l, o) n = .ok (l, o1) ∧ ∀ name, o1.get? name =
            if (name = base ++ ".json".toList ∨ name = base ++ ".svg".toList) ∧ (folder.get? name).isSome then folder.get? name else o.get? name := by
          have e : saveOne (l, o) n = .ok (l, match l.get? (base ++ ".svg".toList) with
              | some f => (o.set (base ++ ".json".toList) (.meshes (some a) (some b))).set (base ++ ".svg".toList) f
              | none => o.set (base ++ ".json".toList) (.meshes (some a) (some b))) := by
            unfold saveOne
            simp only [hj, ne_eq, not_true_eq_false, if_false, hbase, hx, hc, hid', bind, Except.bind, pure, Except.pure, Bool.false_eq_true]
            rw [l1, hfb]
            rfl
          refine ⟨_, e, fun name => ?_⟩
          rw [l2]
          have no : base ++ ".svg".toList ≠ base ++ ".json".toList := by intro e; have := List.append_cancel_left e; revert this; decide
          cases hs : folder.get? (base ++ ".svg".toList) with
          | none =>
            simp only
            rw [Dict.get?_set]
            by_cases h2 : base ++ ".json".toList = name
            · subst h2
              rw [if_pos rfl, if_pos ⟨Or.inl rfl, by rw [hfb]; rfl⟩, hfb]
            · rw [if_neg h2, if_neg]
              rintro ⟨h | h, h'⟩
              · exact h2 h.symm
              · rw [h, hs] at h'; cases h'
          | some f =>
            simp only
            rw [Dict.get?_set, Dict.get?_set]
            by_cases h1 : base ++ ".svg".toList = name
            · subst h1
              rw [if_pos rfl, if_pos ⟨Or.inr rfl, by rw [hs]; rfl⟩, hs]
            · rw [if_neg h1]
              by_cases h2 : base ++ ".json".toList = name
              · subst h2
                rw [if_pos rfl, if_pos ⟨Or.inl rfl, by rw [hfb]; rfl⟩, hfb]
              · rw [if_neg h2, if_neg]
                rintro ⟨h | h, h'⟩
                · exact h2 h.symm
                · exact h1 h.symm
        rw [ho1]
        obtain ⟨l', o', r1, r2, r3⟩ := ih l o1 hn.2 (fun m hm => hk m (List.mem_cons_of_mem _ hm)) (fun base' hb' => hl base' (List.mem_cons_of_mem _ hb'))
        refine ⟨l', o', r1, fun name => ?_, fun name => ?_⟩
        · rw [r2]
          simp only [split, id, hu, false_and, false_or]
        · rw [r3, hget]
          simp only [split, hu, not_false_eq_true, true_and]
          by_cases h1 : BelongsTo folder Not ns name ∧ (folder.get? name).isSome
          · rw [if_pos h1, if_pos ⟨Or.inr h1.1, h1.2⟩]
          · rw [if_neg h1]
            by_cases h2 : (name = base ++ ".json".toList ∨ name = base ++ ".svg".toList) ∧ (folder.get? name).isSome
            · rw [if_pos h2, if_pos ⟨Or.inl h2.1, h2.2⟩]
            · rw [if_neg h2, if_neg]
              rintro ⟨h | h, h'⟩
              · exact h2 ⟨h, h'⟩
              · exact h1 ⟨h, h'⟩
    · have e : saveOne (l, o) n = .ok (l, o) := by unfold saveOne; simp only [ne_eq, hj, not_false_eq_true, if_true]
      rw [e]
      have split : ∀ (u : Prop → Prop) name, BelongsTo folder u (n :: ns) name ↔ BelongsTo folder u ns name := by
        intro u name
        constructor
        · rintro ⟨base', a', b', h1, h2, h3, h4, h5⟩
          rcases List.mem_cons.1 h1 with h1 | h1
          · have := (splitext_json n).2 base' ⟨h1.symm, h2⟩
            rw [this] at hj
            exact absurd rfl hj
          · exact ⟨base', a', b', h1, h2, h3, h4, h5⟩
        · rintro ⟨base', a', b', h1, h2, h3, h4, h5⟩
          exact ⟨base', a', b', List.mem_cons_of_mem _ h1, h2, h3, h4, h5⟩
      obtain ⟨l', o', r1, r2, r3⟩ := ih l o hn.2 (fun m hm => hk m (List.mem_cons_of_mem _ hm)) (fun base' hb' => hl base' (List.mem_cons_of_mem _ hb'))
      refine ⟨l', o', r1, fun name => ?_, fun name => ?_⟩
      · rw [r2]; simp only [split]
      · rw [r3]; simp only [split]

/-- **C104**: exactly the outputs whose new mesh counts as changed are copied to the folder of the user, each with its plot if there is one;
those that count as unchanged are removed with their plots, and all other files stay. -/
theorem C104_saved (folder : Folder) (hf : Spec.Outputs folder) : ∃ left out, saveTests folder [] = .ok (left, out) ∧
    (∀ name f, out.get? name = some f ↔ folder.get? name = some f ∧ Spec.Belongs folder Not name) ∧
    ∀ name f, left.get? name = some f ↔ folder.get? name = some f ∧ ¬ Spec.Belongs folder id name := by
  classical
  obtain ⟨l, o, h1, h2, h3⟩ := saveLoop folder hf (folder.map Prod.fst) folder [] hf.1 (fun n h => h) (fun base _ => ⟨rfl, rfl⟩)
  have key : ∀ u name, BelongsTo folder u (folder.map Prod.fst) name ↔ Spec.Belongs folder u name := by
    intro u name
    constructor
    · rintro ⟨base, a, b, -, r⟩
      exact ⟨base, a, b, r⟩
    · rintro ⟨base, a, b, r1, r2, r3⟩
      exact ⟨base, a, b, (Dict.mem_keys_iff folder _).2 (by rw [r2]; rfl), r1, r2, r3⟩
  refine ⟨l, o, h1, fun name f => ?_, fun name f => ?_⟩
  · rw [h3, key]
    by_cases hb : Spec.Belongs folder Not name
    · by_cases hs : (folder.get? name).isSome
      · simp [hb, hs]
      · simp [hb, hs]
        intro hh; rw [hh] at hs; simp at hs
    · simp [hb]
  · rw [h2, key]
    by_cases hb : Spec.Belongs folder id name <;> simp [hb]

/-- **C104**: lost cells are not noticed.  If all cells of the new mesh are cells of the old one and no remaining node has other
neighbours, the new mesh counts as unchanged, however many cells it lacks. -/
theorem C104_lost {old new : EnvMesh} (h : Spec.Comparable old new) (hs : ∀ c ∈ new.cells, c ∈ old.cells)
    (hg : ∀ i a b, old.graph.nodes.get? i = some a → new.graph.nodes.get? i = some b → ∀ d, (a d).Perm (b d)) : Spec.Unchanged old new := by
  have same : ∀ g c1 c2, Spec.CellWith (old.cells.map Compare.ofCell) g c1 → Spec.CellWith (new.cells.map Compare.ofCell) g c2 → c1 = c2 := by
    rintro g c1 c2 ⟨h1, g1⟩ ⟨h2, g2⟩
    have h2' : c2 ∈ old.cells.map Compare.ofCell := by
      obtain ⟨c, hc, rfl⟩ := List.mem_map.1 h2
      exact List.mem_map_of_mem (hs c hc)
    exact List.inj_on_of_nodup_map h.old_nodup h1 h2' (g1.trans g2.symm)
  refine ⟨?_, ?_, ?_, ?_, fun c _ a b => hg c.id a b⟩
  · rintro p ⟨c, hc, rfl⟩
    exact ⟨c, hs c hc, rfl⟩
  · intro g c1 c2 k g1 g2 _ _ _
    rw [same g c1 c2 g1 g2]
    rfl
  · intro g c1 c2 k g1 g2 _ _ _
    rw [same g c1 c2 g1 g2]
    exact ⟨rfl, rfl⟩
  · intro g c1 c2 g1 g2
    rw [same g c1 c2 g1 g2]

/-- If both meshes tile the same region, an unchanged mesh has the same cells. -/
theorem C104_tiling (old new : EnvMesh) (b : Boundary) (h1 : old.cells ≠ []) (h2 : new.cells ≠ [])
    (t1 : Spec.EnvTiles old b) (t2 : Spec.EnvTiles new b) (p1 : ∀ c ∈ old.cells, Spec.PlainBox c.bounds) (p2 : ∀ c ∈ new.cells, Spec.PlainBox c.bounds)
    (hu : Spec.Unchanged old new) (p : Boundary.Poly) : Spec.HasGeometry old.cells p ↔ Spec.HasGeometry new.cells p := by
  refine (C46_same_region_partial old new b h1 h2 t1 t2 p1 p2).1 ?_ p
  rw [compare_nil_iff _ _ h1 h2]
  exact hu.cells

theorem mismatched_of_cell {old new : EnvMesh} (h : (new.graph.nodes.map Prod.fst).Nodup) {c : AggCell} (hc : c ∈ new.cells) {a b : NMap}
    (ha : old.graph.nodes.get? c.id = some a) (hb : new.graph.nodes.get? c.id = some b) {d : Dir} (hd : ¬ (a d).Perm (b d)) :
    c ∈ Validation.compareGraphs old new ∧ c.id ∈ Validation.mismatchedNodes old.graph.nodes new.graph.nodes := by
  have h1 := (C57_graph_comparison old new c h).2 ⟨hc, a, b, ha, hb, d, hd⟩
  refine ⟨h1, ?_⟩
  unfold Validation.compareGraphs at h1
  obtain ⟨i, hi, hci⟩ := List.mem_flatMap.1 h1
  have := (List.mem_filter.1 hci).2
  simp only [decide_eq_true_eq] at this
  rw [this]
  exact hi

/-- **C104**: the summary of an output in which the neighbours of two cells changed raises. -/
theorem C104_summary_raises {old new : EnvMesh} (h : Spec.Comparable old new) (c c' : AggCell) (hc : c ∈ new.cells) (hc' : c' ∈ new.cells)
    (hne : c.id ≠ c'.id) (a b a' b' : NMap) (ha : old.graph.nodes.get? c.id = some a) (hb : new.graph.nodes.get? c.id = some b)
    (ha' : old.graph.nodes.get? c'.id = some a') (hb' : new.graph.nodes.get? c'.id = some b') (d d' : Dir)
    (hd : ¬ (a d).Perm (b d)) (hd' : ¬ (a' d').Perm (b' d')) :
    summarise (some (.meshes (some old) (some new))) = .error .attributeError := by
  obtain ⟨r, hr, -⟩ := compareMeshes_iff h
  obtain ⟨m1, m2⟩ := mismatched_of_cell h.nodes hc ha hb hd
  obtain ⟨-, m2'⟩ := mismatched_of_cell h.nodes hc' ha' hb' hd'
  have hl : 2 ≤ (Validation.mismatchedNodes old.graph.nodes new.graph.nodes).length := by
    by_contra hcon
    have : (Validation.mismatchedNodes old.graph.nodes new.graph.nodes).length ≤ 1 := by omega
    rcases hm : Validation.mismatchedNodes old.graph.nodes new.graph.nodes with _ | ⟨x, _ | ⟨y, l⟩⟩
    · rw [hm] at m2; simp at m2
    · rw [hm, List.mem_singleton] at m2 m2'
      exact hne (m2.trans m2'.symm)
    · rw [hm] at this; simp at this
  have hg : graphLine old new = .error .attributeError := by
    unfold graphLine
    rw [if_neg (List.ne_nil_of_mem m1), if_pos hl]
  unfold summarise
  simp only [extractMeshes, hr, hg, bind, Except.bind]

/-- Otherwise the four numbers are reported; the first is that of the new cells whose geometry the old mesh does not have, and all
four are zero exactly for an unchanged mesh. -/
theorem C104_summary {old new : EnvMesh} (h : Spec.Comparable old new)
    (h1 : ∀ c ∈ new.cells, ∀ c' ∈ new.cells, c.id = c'.id → c = c') (h2 : (Validation.mismatchedNodes old.graph.nodes new.graph.nodes).length ≤ 1) :
    ∃ w x y z, summarise (some (.meshes (some old) (some new))) = .ok [w, x, y, z] ∧ z ≤ 1 ∧
      w = (new.cells.filter (fun c => c.bounds.toPolygon ∉ old.cells.map (fun c => c.bounds.toPolygon))).length ∧
      ((w = 0 ∧ x = 0 ∧ y = 0 ∧ z = 0) ↔ Spec.Unchanged old new) := by
  obtain ⟨r, hr, hid⟩ := compareMeshes_iff h
  have hg : graphLine old new = .ok (Validation.compareGraphs old new).length := by
    unfold graphLine
    simp only
    split_ifs with k1 k2
    · rw [k1]; rfl
    · omega
    · rfl
  have hf : ∀ l : List AggCell, l ≠ [] → Validation.frame l = .ok (l.map (fun c => (c.bounds.toPolygon, c.data))) := by
    intro l hl; unfold Validation.frame; rw [if_neg hl]
  have hr' := hr
  unfold compareMeshes at hr'
  rw [hf _ h.new_ne] at hr'
  have hb : Validation.compareBoundaries old.cells new.cells = .ok ((new.cells.map (fun c => (c.bounds.toPolygon, c.data))).filter
      (fun row => row.1 ∉ (old.cells.map (fun c => (c.bounds.toPolygon, c.data))).map Prod.fst)) := by
    unfold Validation.compareBoundaries
    rw [hf _ h.new_ne, hf _ h.old_ne]
    rfl
  rw [hb] at hr'
  cases hv : Compare.compareValues (old.cells.map Compare.ofCell) (new.cells.map Compare.ofCell) with
  | error e => rw [hv] at hr'; cases hr'
  | ok v =>
    rw [hv] at hr'
    have hr' := Except.ok.inj hr'
    refine ⟨r.bounds.length, r.values.length, r.attributes.length, (Validation.compareGraphs old new).length, ?_, ?_, ?_, ?_⟩
    · unfold summarise
      simp only [extractMeshes, hr, hg, bind, Except.bind, pure, Except.pure]
    · unfold Validation.compareGraphs
      rcases hm : Validation.mismatchedNodes old.graph.nodes new.graph.nodes with _ | ⟨x, _ | ⟨y, l⟩⟩
      · simp
      · simp only [List.flatMap_cons, List.flatMap_nil, List.append_nil]
        by_contra hcon
        have nd : (new.cells.filter (fun c => c.id = x)).Nodup := by
          have : new.cells.Nodup := List.Nodup.of_map _ (List.Nodup.of_map _ h.new_nodup)
          exact this.filter _
        rcases hl : new.cells.filter (fun c => c.id = x) with _ | ⟨c, _ | ⟨c', l⟩⟩
        · rw [hl] at hcon; simp at hcon
        · rw [hl] at hcon; simp at hcon
        · have k1 : c ∈ new.cells.filter (fun c => c.id = x) := by rw [hl]; simp
          have k2 : c' ∈ new.cells.filter (fun c => c.id = x) := by rw [hl]; simp
          rw [List.mem_filter] at k1 k2
          simp only [decide_eq_true_eq] at k1 k2
          have := h1 c k1.1 c' k2.1 (k1.2.trans k2.2.symm)
          rw [hl, this] at nd
          simp at nd
      · rw [hm] at h2; simp at h2
    · rw [← hr']
      simp only
      rw [List.filter_map, List.length_map]
      congr 2
      funext c
      simp [Function.comp_def]
    · rw [← hid, ← hr']
      simp only [Comparison.identical, List.length_eq_zero_iff, Bool.and_eq_true, List.isEmpty_iff]
      tauto

/-- **C104**: a summary that raises ends the automater: no unit test is run, nothing is reported and nothing is saved. -/
theorem C104_aborts {order : List (List Char) → List (List Char)} (run : Runner) (unit save : Bool) (files : List (List Char)) (s : State)
    (hs : runTests order run files regressionTable ⟨⟨[], [], []⟩, []⟩ = .ok s) (base : List Char) (f : File) (e : Err)
    (hf : s.folder.get? (base ++ ".json".toList) = some f) (he : summarise (some f) = .error e) :
    ∃ e', automate order run true unit save files = .error e' := by
  have hk : base ++ ".json".toList ∈ s.folder.keys.filter (fun n => ".json".toList.isSuffixOf n) := by
    rw [List.mem_filter]
    refine ⟨(Dict.mem_keys_iff _ _).2 (by rw [hf]; rfl), ?_⟩
    rw [List.isSuffixOf_iff_suffix]
    exact List.suffix_append _ _
  cases hm : (s.folder.keys.filter (fun n => ".json".toList.isSuffixOf n)).mapM (fun n => summarise (s.folder.get? n)) with
  | error e' =>
    refine ⟨e', ?_⟩
    unfold automate runRegression
    simp only [if_true, hs, hm, bind, Except.bind]
  | ok l =>
    exfalso
    obtain ⟨y, hy⟩ := mapM_ok_exists.1 ⟨l, hm⟩ _ hk
    rw [hf, he] at hy
    cases hy

/-- Meshes whose cells hold numbers only, each name once, have attributes of the same kind. -/
theorem numeric_kinds {old new : List AggCell} (ho : old ≠ []) (hn : new ≠ [])
    (h : ∀ c ∈ old ++ new, (c.data.map Prod.fst).Nodup ∧ ∀ k s, c.data.get? k ≠ some (.str s)) (k : String) :
    Spec.NumberColumn (old.map Compare.ofCell) k ↔ Spec.NumberColumn (new.map Compare.ofCell) k := by
  have key : ∀ l : List AggCell, l ≠ [] → (∀ c ∈ l, (c.data.map Prod.fst).Nodup ∧ ∀ k s, c.data.get? k ≠ some (.str s)) →
      (Spec.NumberColumn (l.map Compare.ofCell) k ↔ k ≠ "id") := by
    intro l hl hd
    obtain ⟨c0, hc0⟩ := List.exists_mem_of_ne_nil l hl
    have form : k ≠ "id" → ∀ c ∈ l, (Compare.ofCell c).entries.get? k = none ∨ ∃ x, (Compare.ofCell c).entries.get? k = some (.flt x) := by
      intro hk c hc
      obtain ⟨w1, w2⟩ := hd c hc
      obtain ⟨-, -, w⟩ := C75_written c w1
      obtain ⟨v1, v2⟩ := w k hk
      cases hg : c.data.get? k with
      | none =>
        rw [v2 hg]
        split_ifs <;> simp
      | some v =>
        rw [v1 v hg]
        cases v with
        | num x => exact Or.inr ⟨x, rfl⟩
        | str s => exact absurd hg (w2 k s)
    constructor
    · rintro ⟨h1, -⟩ rfl
      exact h1 _ (List.mem_map_of_mem hc0) _ (C75_written c0 (hd c0 hc0).1).2.1
    · intro hk
      refine ⟨?_, _, List.mem_map_of_mem hc0, ?_⟩
      · rintro c' hc' s
        obtain ⟨c, hc, rfl⟩ := List.mem_map.1 hc'
        rcases form hk c hc with e | ⟨x, e⟩ <;> rw [e] <;> simp
      · intro n
        rcases form hk c0 hc0 with e | ⟨x, e⟩ <;> rw [e] <;> simp
  rw [key old ho (fun c hc => h c (by simp [hc])), key new hn (fun c hc => h c (by simp [hc]))]

/-- A mesh of two cells apart from each other, and the same without the second one. -/
def exOld : EnvMesh := { boxesMesh [⟨0, 5, 0, 5, []⟩, ⟨0, 5, 20, 25, []⟩] with graph := ⟨[(0, fun _ => []), (1, fun _ => [])], false⟩ }
def exLost : EnvMesh := { boxesMesh [⟨0, 5, 0, 5, []⟩] with graph := ⟨[(0, fun _ => [])], false⟩ }

theorem exLost_comparable : Spec.Comparable exOld exLost where
  old_ne := by decide +kernel
  new_ne := by decide +kernel
  old_nodup := by decide +kernel
  new_nodup := by decide +kernel
  kinds := fun k _ _ => numeric_kinds (by decide +kernel) (by decide +kernel) (by
    intro c hc
    have : c.data = [] := by
      revert c
      decide +kernel
    rw [this]
    exact ⟨by simp, by simp⟩) k
  nodes := by decide +kernel

/-- The output with the lost cell is removed, and nothing is saved. -/
theorem C104_lost_false : ∃ left out, saveTests [("grf.comparison.json".toList, .meshes (some exOld) (some exLost))] [] = .ok (left, out) ∧
    (∀ name, left.get? name = none) ∧ (∀ name, out.get? name = none) ∧ exLost.cells.length < exOld.cells.length := by
  have hu : Spec.Unchanged exOld exLost := C104_lost exLost_comparable (by decide +kernel) (by
    intro i a b ha hb d
    simp only [exOld, exLost, Dict.get?] at ha hb
    split_ifs at ha hb
    simp_all)
  have hout : Spec.Outputs [("grf.comparison.json".toList, .meshes (some exOld) (some exLost))] := by
    refine ⟨by simp, ?_⟩
    intro base name f _ hf
    simp only [Dict.get?] at hf
    split_ifs at hf
    · exact ⟨exOld, exLost, (Option.some.inj hf).symm, exLost_comparable⟩
  obtain ⟨left, out, h1, h2, h3⟩ := C104_saved _ hout
  have hname : ("grf.comparison.json".toList : List Char) = "grf.comparison".toList ++ ".json".toList := by decide +kernel
  have hb : Spec.Belongs [("grf.comparison.json".toList, .meshes (some exOld) (some exLost))] id "grf.comparison.json".toList := by
    refine ⟨"grf.comparison".toList, exOld, exLost, ⟨'g', by decide +kernel, by decide⟩, ?_, hu, Or.inl hname⟩
    simp only [Dict.get?]
    rw [if_pos hname]
  refine ⟨left, out, h1, fun name => ?_, fun name => ?_, by decide +kernel⟩
  · cases hl : left.get? name with
    | none => rfl
    | some f =>
      obtain ⟨k1, k2⟩ := (h3 name f).1 hl
      simp only [Dict.get?] at k1
      split_ifs at k1 with hh
      · subst hh; exact absurd hb k2
  · cases ho : out.get? name with
    | none => rfl
    | some f =>
      obtain ⟨k1, base, a, b, k2, k3, k4, k5⟩ := (h2 name f).1 ho
      simp only [Dict.get?] at k3
      split_ifs at k3
      simp only [Option.some.injEq, File.meshes.injEq] at k3
      obtain ⟨rfl, rfl⟩ := k3
      exact absurd hu k4

/-- A mesh in which the neighbours of both cells changed. -/
def exJoined : EnvMesh := { exOld with
  graph := ⟨[(0, fun d => if d = .east then [1] else []), (1, fun d => if d = .west then [0] else [])], false⟩ }

example : summarise (some (.meshes (some exOld) (some exJoined))) = .error .attributeError := by
  refine C104_summary_raises (c := ⟨⟨0, 5, 0, 5, []⟩, [], 0⟩) (c' := ⟨⟨0, 5, 20, 25, []⟩, [], 1⟩) ⟨by decide +kernel, by decide +kernel, by decide +kernel,
    by decide +kernel, fun k _ _ => Iff.rfl, by decide +kernel⟩ (by decide +kernel) (by decide +kernel) (by decide) _ _ _ _ rfl rfl rfl rfl .east .west ?_ ?_
  · decide
  · decide

end Verif
