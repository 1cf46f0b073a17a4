#!/bin/sh
# Runs the model of the AIGER reader and printer (compiled) on .aig files and compares the text it prints with the .aag file beside each.
# Usage: tools/conformance.sh <scratch directory> <file.aig>...
# The expected texts are those that /repo/tests/aig_creation.rs compares the Rust code with.
set -e
verif=$(cd "$(dirname "$0")/.." && pwd)
dir=$1; shift
mkdir -p "$dir/Verif"
cp "$verif/lean/Verif/Base.lean" "$dir/Verif/"
cp -r "$verif/lean/Verif/Model" "$dir/Verif/"
cat > "$dir/lakefile.toml" <<'X'
name = "conf"
defaultTargets = ["conf"]

[[lean_lib]]
name = "Verif"

[[lean_exe]]
name = "conf"
root = "Main"
X
cat > "$dir/Main.lean" <<'X'
import Verif.Model.AigPrint
import Verif.Model.AigParse
open Verif
def errStr : Err → String
  | .panic s => "panic " ++ s
  | .fuel => "fuel"
def main (args : List String) : IO UInt32 := do
  let mut bad := 0
  for p in args do
    let bytes ← IO.FS.readBinFile p
    let aag ← IO.FS.readBinFile (p.replace ".aig" ".aag")
    match Aig.fromBytes true bytes.toList with
    | .error e =>
      IO.println s!"{p}: rejected {errStr e}"
      bad := 1
    | .ok a => match a.getAagString with
      | .error e =>
        IO.println s!"{p}: print {errStr e}"
        bad := 1
      | .ok t =>
        if t == aag.toList then IO.println s!"{p}: ok"
        else
          IO.println s!"{p}: DIFFERENT"
          bad := 1
    (← IO.getStdout).flush
  return bad
X
(cd "$dir" && lake build >&2)
ulimit -s unlimited
exec "$dir/.lake/build/bin/conf" "$@"
