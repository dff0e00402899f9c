#!/bin/sh
# Compiles the model (lean/Verif/Run.lean, after `lake build`) and runs it on the images of the tests in /repo.
# Usage: run.sh <scratch directory>. Needs python3 and a C compiler; `leanc` comes with Lean.
set -e
here=$(cd "$(dirname "$0")" && pwd)
mkdir -p "$1/img"
cd "$1"
cc -O2 -o jpg "$here/jpg.c" -lm 2> /dev/null || leanc -O2 -o jpg "$here/jpg.c" -lm
python3 "$here/dec.py"
for f in full/gogh errors/should-not-panic-1 errors/should-not-panic-2; do
  ./jpg /repo/tests/data/$f.jpg img/$(basename $f).jpg.raw
done
ir=$here/../lean/.lake/build/ir/Verif
leanc -O2 -o run $(for m in Basic Float Prepare Geometry Detect GF VersionDb Decode Identify Lib; do echo $ir/Model/$m.c; done) $ir/Run.c
ulimit -s unlimited
./run img/*.raw
