import Verif.Model.Shape

/-!
# CSV files: `parse2DCsvFile` and the writers of the tools

A file is the list of its characters; `none` is a file that cannot be opened. The conversions between numbers and text
are the C++ library's: `std::stof` is a parameter `stof`, `operator<<(ostream&, double)` a parameter `pr`; what is
assumed of them is stated in `Spec/Csv.lean`. Unsigned integers are printed in decimal (`Nat.toDigits 10`).
-/

namespace Hrm

/-- The outcome of `std::stof`: a value, `std::invalid_argument` (no number at the beginning of the text) or
`std::out_of_range` (a number that is no normal `float`). Simplification: the texts `nan` and `inf` are not modelled. -/
inductive Scan where
  | val (v : ℝ)
  | invalid
  | range

/-- `std::getline(stream, s, d)`: `none` when the stream is at its end; otherwise the characters up to the next `d` (or
the end) and what remains after it. -/
def getline (d : Char) (cs : List Char) : Option (List Char × List Char) :=
  if cs = [] then none else some (cs.takeWhile (· ≠ d), (cs.dropWhile (· ≠ d)).tail)

theorem getline_lt {d : Char} {cs s rest : List Char} (h : getline d cs = some (s, rest)) : rest.length < cs.length := by
  unfold getline at h
  split at h
  · exact nomatch h
  · rename_i hne
    obtain ⟨-, rfl⟩ := Prod.mk.inj (Option.some.inj h)
    have h1 := (List.dropWhile_suffix (l := cs) (fun x => decide (x ≠ d))).length_le
    have h2 : 0 < cs.length := List.length_pos_iff.2 hne
    rw [List.length_tail]
    omega

/-- `while (stream) { if (!getline(stream, s, d)) break; ... }`, Parse2dCsvFile.cpp:9-14 (with `'\n'`) and 19-23 (with
`','`): all the strings read. -/
def readAll (d : Char) (cs : List Char) : List (List Char) :=
  match _h : getline d cs with
  | none => []
  | some (s, rest) => s :: readAll d rest
termination_by cs.length
decreasing_by exact getline_lt _h

/-- One field, Parse2dCsvFile.cpp:24-30: a token that is no number is reported and skipped; `std::out_of_range` is not
caught. -/
noncomputable def parseField (stof : List Char → Scan) (record : List ℝ) (f : List Char) : Res (List ℝ) :=
  match stof f with
  | .val v => .ok (record ++ [v])
  | .invalid => .ok record
  | .range => .throw

/-- One line, Parse2dCsvFile.cpp:15-34: nothing for a comment, otherwise one record. (`s[0]` of an empty line is the
terminating zero character.) -/
noncomputable def parseLine (stof : List Char → Scan) (data : List (List ℝ)) (s : List Char) : Res (List (List ℝ)) :=
  if s.head? = some '#' then .ok data
  else ((readAll ',' s).foldlM (parseField stof) []).bind fun r => .ok (data ++ [r])

/-- `parse2DCsvFile`, Parse2dCsvFile.cpp:3-43. A file that is not open leaves the loop at once without the end-of-file
flag: `std::invalid_argument`. -/
noncomputable def parseCsv (stof : List Char → Scan) : Option (List Char) → Res (List (List ℝ))
  | none => .throw
  | some text => (readAll '\n' text).foldlM (parseLine stof) []

/-- The writers of rows of numbers, each followed by a comma: vertices (DisplayPlanningData.cpp:32-37), solution path
(71-76) and interpolated path (82-87). -/
def writeRows (pr : ℝ → List Char) (rows : List (List ℝ)) : List Char :=
  rows.flatMap fun row => row.flatMap (fun x => pr x ++ [',']) ++ ['\n']

/-- The writer of the edges, DisplayPlanningData.cpp:42-44. -/
def writeEdges (edges : List (ℕ × ℕ)) : List Char :=
  edges.flatMap fun e => Nat.toDigits 10 e.1 ++ [','] ++ Nat.toDigits 10 e.2 ++ ['\n']

/-- The writer of the path's vertex numbers, DisplayPlanningData.cpp:58-62: one line without an end. -/
def writeIds (ids : List ℕ) : List Char :=
  ids.flatMap fun i => Nat.toDigits 10 i ++ [',']

/-- A row with commas between the numbers only, ParsePlanningSettings.cpp:200-205, 208-211, 231-232, 254-257. -/
def writeRow (pr : ℝ → List Char) : List ℝ → List Char
  | [] => ['\n']
  | [x] => pr x ++ ['\n']
  | x :: y :: l => pr x ++ [','] ++ writeRow pr (y :: l)

end Hrm
