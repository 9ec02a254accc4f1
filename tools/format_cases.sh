#!/bin/sh
# Runs the model of the formatter on the repository's own test cases (tests/formatting/cases) and compares the outputs.
cat > /tmp/format_cases.lean <<'L'
import Verif.Format.Walker
import Verif.Props.Lexer
open Verif Verif.Lexer Verif.Grammar Verif.Format
def getB (l : List (String × String)) (k : String) (d : Bool) : Bool := match l.lookup k with | some v => v == "true" | none => d
def getN (l : List (String × String)) (k : String) : Option Nat := (l.lookup k).bind String.toNat?
def readSettings (s : String) : FormatSettings × Bool :=
  let l := (s.splitOn "\n").filterMap (fun x => match x.splitOn "=" with | [a, b] => some (a.trimAscii.toString, b.trimAscii.toString) | _ => none)
  ({ alignPredicates := getB l "alignPredicates" true, alignPrefixes := getB l "alignPrefixes" false,
     separatePrologue := getB l "separatePrologue" false, capitalizeKeywords := getB l "capitalizeKeywords" true,
     insertSpaces := some (getB l "insertSpaces" true), tabSize := some ((getN l "tabSize").getD 2),
     whereNewLine := getB l "whereNewLine" false, filterSameLine := getB l "filterSameLine" true,
     compact := getN l "compact", lineLength := (getN l "lineLength").getD 120, keepEmptyLines := getB l "keepEmptyLines" false },
   getB l "contractTriples" false)
def main : IO Unit := do
  let dir : System.FilePath := "/repo/tests/formatting/cases"
  let mut ok := 0
  for e in (← dir.readDir) do
    if !(← e.path.isDir) then continue
    let input ← IO.FS.readFile (e.path / "input.sparql")
    let expected ← IO.FS.readFile (e.path / "expected.sparql")
    let toml := e.path / "settings.toml"
    let st ← if ← toml.pathExists then (do let s ← IO.FS.readFile toml; pure (readSettings s)) else pure (FormatSettings.default, false)
    if st.2 then IO.println s!"skipped (contractTriples): {e.fileName}"; continue
    let t := input.toList
    match parseSource (fun _ => 1) t with
    | none => IO.println s!"NO PARSE {e.fileName}"
    | some (g, _) =>
      match formatDoc (fun t => t.length) st.1 ⟨2, true⟩ t g with
      | none => IO.println s!"PANIC {e.fileName}"
      | some es =>
        match applyTextEdits t es with
        | none => IO.println s!"APPLY PANIC {e.fileName}"
        | some r => if r == expected.toList then ok := ok + 1 else IO.println s!"DIFF {e.fileName}\n{String.ofList r}"
  IO.println s!"agree: {ok}"
L
cd /verif/lean && lake env lean --run /tmp/format_cases.lean
