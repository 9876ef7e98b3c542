import Verif.Model.Compare
import Verif.Model.Importers

/-!
# Model of the test automation

`/repo/meshiphi/test_automation/test_automater.py` and the two tables of `/repo/meshiphi/__init__.py`.

Texts are lists of characters.  What `pytest` prints and leaves in its directory is a function `Runner`; what `git diff` prints is an
argument.  A directory maps names of files (without `/`) to contents; it is listed in the order of the map.  The files that the
regression tests leave hold two meshes written by `to_json`, or one of them is missing; everything else in a directory is `other`.

Not modelled: plots (`plot=True`), changes of the working directory, the text of the log, temporary directories themselves.  White
space is that of ASCII.
-/

namespace Verif.TestRun

open Verif.Importers (basename)

/-- Used for `/repo/meshiphi/test_automation/test_automater.py` 217-250. -/
abbrev Text := List Char

/-! ## The output of pytest -/

/-- `TestInfo`, `/repo/meshiphi/test_automation/test_automater.py` 631-639. -/
structure Info where
  file : Text
  test : Text
  reference : Text
  status : Text
  deriving DecidableEq

/-- `line.replace('::', ' ')` (`test_automater.py` 237). -/
def replaceColons : Text → Text
  | ':' :: ':' :: r => ' ' :: replaceColons r
  | c :: r => c :: replaceColons r
  | [] => []

/-- `.replace('[',' ').replace(']', ' ')` (`test_automater.py` 237). -/
def replaceBrackets (s : Text) : Text := s.map (fun c => if c = '[' ∨ c = ']' then ' ' else c)

/-- White space of `str.split()`.  See `/repo/meshiphi/test_automation/test_automater.py` 238. -/
def isSpace (c : Char) : Bool := c ∈ [' ', '\t', '\n', '\r', '\x0b', '\x0c', '\x1c', '\x1d', '\x1e', '\x1f']

/-- `str.split()` (`test_automater.py` 238). -/
def words (s : Text) : List Text := (s.splitOnP isSpace).filter (· ≠ [])

/-- `'::' in line` (`test_automater.py` 235). -/
def hasColons (s : Text) : Bool := ("::".toList : Text) <:+: s

/-- `'short test summary info' in s` (`test_automater.py` 231). -/
def isSummary (s : Text) : Bool := ("short test summary info".toList : Text) <:+: s

/-- An element of a list of words.  See `/repo/meshiphi/test_automation/test_automater.py` 237-244. -/
def wordAt (l : List Text) (i : ℕ) : Py Text :=
  match l[i]? with
  | some w => .ok w
  | none => .error .indexError

/-- The test of one line, `test_automater.py` 237-244. -/
def parseLine (line : Text) : Py Info := do
  let w := words (replaceBrackets (replaceColons line))
  let status ← wordAt w 0
  let file ← wordAt w 1
  let test ← wordAt w 2
  let reference ← wordAt w 3
  return ⟨file, basename test, reference, status⟩

/-- The three lists of tests, `test_automater.py` 223-226. -/
structure Results where
  passes : List Info
  fails : List Info
  errors : List Info
  deriving DecidableEq

/-- The results of several runs, `test_automater.py` 131-133. -/
def Results.append (a b : Results) : Results := ⟨a.passes ++ b.passes, a.fails ++ b.fails, a.errors ++ b.errors⟩

/-- One line, `test_automater.py` 234-253. -/
def readLine (acc : Results) (line : Text) : Py Results :=
  if hasColons line then do
    let i ← parseLine line
    if i.status = "PASSED".toList then return { acc with passes := acc.passes ++ [i] }
    else if i.status = "FAILED".toList then return { acc with fails := acc.fails ++ [i] }
    else if i.status = "ERROR".toList then return { acc with errors := acc.errors ++ [i] }
    else .error .valueError
  else .ok acc

/-- Models `test_automater.py` 213-255, `parse_pytest_stdout`. -/
def parseStdout (stdout : Text) : Py Results :=
  let lines := stdout.splitOn '\n'
  match lines.findIdx? isSummary with
  | none => .error .indexError
  | some i => (lines.drop i).foldlM readLine ⟨[], [], []⟩

/-! ## The choice of the tests -/

/-- The arguments of git, `test_automater.py` 287-296; an empty name of a branch counts as none. -/
def diffCommand (fromBranch intoBranch : Option Text) : List Text :=
  let into := intoBranch.getD "main".toList
  let base := ["git".toList, "--no-pager".toList, "diff".toList, "--name-only".toList]
  match fromBranch with
  | none => base ++ [into]
  | some f => if f = [] then base ++ [into] else base ++ ["--merge-base".toList, f, into]

/-- A repository as far as `git diff --name-only` looks at it: the paths that occur, the files of the working tree, of the tips of
branches, and of the merge base of two branches.  See `/repo/meshiphi/test_automation/test_automater.py` 287-318. -/
structure Repo where
  paths : List Text
  worktree : Text → Option Text
  tip : Text → Text → Option Text
  mergeBase : Text → Text → Text → Option Text

/-- What git prints for the two commands of `test_automater.py` 287-300: `git diff --name-only B` compares `B` with the
working tree, and `git diff --name-only --merge-base A B` compares the merge base of `A` and `B` with `B` (manual of git-diff).  Names
with special characters, which git quotes, are not modelled. -/
def gitOutput (r : Repo) (command : List Text) : Text :=
  match command with
  | [_, _, _, _, b] => (r.paths.filter (fun p => r.tip b p ≠ r.worktree p)).flatMap (fun p => p ++ ['\n'])
  | [_, _, _, _, _, a, b] => (r.paths.filter (fun p => r.mergeBase a b p ≠ r.tip b p)).flatMap (fun p => p ++ ['\n'])
  | _ => []

/-- The files of `git diff`, `test_automater.py` 302-318. -/
def diffFiles (stdout : Text) : List Text := (stdout.splitOn '\n').filter (· ≠ [])

/-- The tests of the names of files.  See `/repo/meshiphi/__init__.py` 18-41. -/
abbrev TestTable := Dict Text (List Text)

/-- `REGRESSION_TESTS_BY_FILE`, `/repo/meshiphi/__init__.py` 18-28. -/
def regressionTable : TestTable := [
  ("mesh_builder.py".toList, ["test_mesh.py".toList]),
  ("mesh.py".toList, ["test_mesh.py".toList]),
  ("neighbour_graph.py".toList, ["test_mesh.py".toList]),
  ("metadata.py".toList, ["test_mesh.py".toList]),
  ("aggregated_cellbox.py".toList, ["test_mesh.py".toList]),
  ("boundary.py".toList, ["test_mesh.py".toList]),
  ("cellbox.py".toList, ["test_mesh.py".toList]),
  ("direction.py".toList, ["test_mesh.py".toList]),
  ("environment_mesh.py".toList, ["test_mesh.py".toList])]

/-- `UNIT_TESTS_BY_FILE`, `/repo/meshiphi/__init__.py` 30-41. -/
def unitTable : TestTable := [
  ("mesh_builder.py".toList, ["test_mesh_builder.py".toList]),
  ("mesh.py".toList, []),
  ("neighbour_graph.py".toList, ["test_neighbour_graph.py".toList]),
  ("metadata.py".toList, []),
  ("aggregated_cellbox.py".toList, ["test_aggregated_cellbox.py".toList]),
  ("boundary.py".toList, ["test_boundary.py".toList]),
  ("cellbox.py".toList, ["test_cellbox.py".toList]),
  ("direction.py".toList, []),
  ("environment_mesh.py".toList, ["test_env_mesh.py".toList]),
  ("cli.py".toList, ["test_cli.py".toList])]

/-- Models `test_automater.py` 320-342, `get_relevant_tests`. -/
def relevantTests (file : Text) (table : TestTable) : List Text :=
  table.flatMap (fun p => if p.1 = basename file then p.2 else [])

/-- What a file of a directory holds: the two meshes of a regression test, or something else.
See `/repo/meshiphi/test_automation/test_automater.py` 143-175, 418-451. -/
inductive File where
  | meshes (old new : Option EnvMesh)
  | other (content : Text)

/-- The files of a directory.  See `/repo/meshiphi/test_automation/test_automater.py` 91-175, 418-451. -/
abbrev Folder := Dict Text File

/-- A run of pytest on a file of tests: what it prints, and its directory afterwards.
See `/repo/meshiphi/test_automation/test_automater.py` 121-133. -/
abbrev Runner := Text → Folder → Text × Folder

/-- The results so far and the directory of pytest.  See `/repo/meshiphi/test_automation/test_automater.py` 91-141. -/
structure State where
  results : Results
  folder : Folder

/-- One file of tests, `test_automater.py` 121-133. -/
def runOne (run : Runner) (s : State) (test : Text) : Py State := do
  let out := run test s.folder
  let r ← parseStdout out.1
  return ⟨s.results.append r, out.2⟩

/-- Models `test_automater.py` 91-141, `_run_tests`; `order` lists a set (`list(set(..))`, line 116). -/
def runTests (order : List Text → List Text) (run : Runner) (files : List Text) (table : TestTable) (s : State) : Py State :=
  (order (files.flatMap (fun f => relevantTests f table))).foldlM (runOne run) s

/-- Models `test_automater.py` 612-629, `summarise_test_stats`: for each file of tests the number of passes and of
tests. -/
def testStats (order : List Text → List Text) (r : Results) : List (Text × ℕ × ℕ) :=
  let all := r.passes ++ r.fails ++ r.errors
  let byFile : Dict Text (List Text) := (order (all.map Info.file)).map (fun f => (f, []))
  let byFile := all.foldl (fun d t => d.set t.file ((d.get? t.file).getD [] ++ [t.status])) byFile
  byFile.map (fun p => (p.1, p.2.count "PASSED".toList, p.2.length))

/-! ## The comparison of the meshes -/

/-- The four comparisons of `test_automater.py` 365-391, `compare_meshes`. -/
structure Comparison where
  bounds : Validation.Rows
  values : List Compare.JCell
  attributes : List Compare.JCell
  graph : List AggCell

/-- Models `test_automater.py` 365-391, `compare_meshes`; lines 383 and 384 raise without cells. -/
def compareMeshes (old new : EnvMesh) : Py Comparison := do
  let _ ← Validation.frame new.cells
  let b ← Validation.compareBoundaries old.cells new.cells
  let v ← Compare.compareValues (old.cells.map Compare.ofCell) (new.cells.map Compare.ofCell)
  let a := Compare.compareAttributes (old.cells.map Compare.ofCell) (new.cells.map Compare.ofCell)
  return ⟨b, v, a, Validation.compareGraphs old new⟩

/-- `all(df.empty ..)`, `test_automater.py` 432-434. -/
def Comparison.identical (c : Comparison) : Bool := c.bounds.isEmpty && c.values.isEmpty && c.attributes.isEmpty && c.graph.isEmpty

/-- Models `test_automater.py` 345-363, `extract_test_meshes`. -/
def extractMeshes : Option File → Py (EnvMesh × EnvMesh)
  | none => .error .fileNotFound
  | some (.other _) => .error .valueError
  | some (.meshes old new) =>
    match old, new with
    | some a, some b => .ok (a, b)
    | _, _ => .error .keyError

/-- The line about the neighbour graph, `test_automater.py` 581-600: how many of the new cells differ.  The rows of the nodes were
put side by side (`/repo/meshiphi/mesh_validation/mesh_comparator.py` 217), so with two nodes `diff_df['id']` is a frame, which has no `to_list`
(`test_automater.py` 599-600). -/
def graphLine (old new : EnvMesh) : Py ℕ :=
  let rows := Validation.compareGraphs old new
  if rows = [] then .ok 0
  else if 2 ≤ (Validation.mismatchedNodes old.graph.nodes new.graph.nodes).length then .error .attributeError
  else .ok rows.length

/-- Models `test_automater.py` 573-610, `summarise_reg_tests`: the four numbers of different cells. -/
def summarise (f : Option File) : Py (List ℕ) := do
  let m ← extractMeshes f
  let c ← compareMeshes m.1 m.2
  let g ← graphLine m.1 m.2
  return [c.bounds.length, c.values.length, c.attributes.length, g]

/-- `os.path.splitext` of a name without `/`: dots at the front do not count.  See `/repo/meshiphi/test_automation/test_automater.py` 422. -/
def splitext (name : Text) : Text × Text :=
  let ext := (name.reverse.takeWhile (· ≠ '.')).reverse
  let base := name.take (name.length - ext.length - 1)
  if '.' ∈ name ∧ ∃ c ∈ base, c ≠ '.' then (base, '.' :: ext) else (name, [])

/-- Models `test_automater.py` 143-175, `run_regression_tests`, with a folder and without plots: the summaries of all files whose name ends in `.json`. -/
def runRegression (order : List Text → List Text) (run : Runner) (files : List Text) (s : State) : Py (State × List (List ℕ)) := do
  let s ← runTests order run files regressionTable s
  let l ← (s.folder.keys.filter (fun n => ".json".toList.isSuffixOf n)).mapM (fun n => summarise (s.folder.get? n))
  return (s, l)

/-- One file of the loop of `test_automater.py` 418-451: the folder of pytest and that of the user. -/
def saveOne (s : Folder × Folder) (name : Text) : Py (Folder × Folder) :=
  let base := (splitext name).1
  if (splitext name).2 ≠ ".json".toList then .ok s
  else do
    let m ← extractMeshes (s.1.get? (base ++ ".json".toList))
    let c ← compareMeshes m.1 m.2
    if c.identical then return ((s.1.del (base ++ ".json".toList)).del (base ++ ".svg".toList), s.2)
    else
      let out := match s.1.get? (base ++ ".json".toList) with
        | some f => s.2.set (base ++ ".json".toList) f
        | none => s.2
      let out := match s.1.get? (base ++ ".svg".toList) with
        | some f => out.set (base ++ ".svg".toList) f
        | none => out
      return (s.1, out)

/-- Models `test_automater.py` 393-451, `save_tests`; the list of references that its flags select (lines 407-416) is not used. -/
def saveTests (folder out : Folder) : Py (Folder × Folder) := folder.keys.foldlM saveOne (folder, out)

/-- Models `test_automater.py` 21-89, `__init__`, without plots: the results, the summaries, the numbers of passes, and the folder of the
user, which is made anew (`_setup_output_folder`, 192-210). -/
def automate (order : List Text → List Text) (run : Runner) (regression unit save : Bool) (files : List Text) :
    Py (Results × List (List ℕ) × List (Text × ℕ × ℕ) × Option Folder) := do
  let s0 : State := ⟨⟨[], [], []⟩, []⟩
  let r ← (if regression then runRegression order run files s0 else .ok (s0, []))
  let s ← (if unit then runTests order run files unitTable r.1 else .ok r.1)
  let stats := testStats order s.results
  if save then do
    let o ← saveTests s.folder []
    return (s.results, r.2, stats, some o.2)
  else return (s.results, r.2, stats, none)

end Verif.TestRun
