#!/bin/sh
# Compiles the model with Verif.Conformance and runs it on the project's test data.  Needs `lake build Verif.Conformance` in ../lean.
# Usage: run.sh DIRECTORY [debug|release] [digit width] [stride]: with stride k, every k-th case of each group.
set -e
here=$(cd "$(dirname "$0")" && pwd)
dir=$1; build=${2:-debug}; width=${3:-64}; stride=${4:-1}
python3 "$here/gen.py" "$dir" > /dev/null
if [ ! -x "$dir/conformance" ]; then
  cd "$here/../lean"
  mods=Verif/Conformance
  for i in 1 2 3 4 5 6 7 8 9 10; do
    mods=$(for m in $mods; do echo "$m"; sed -n 's/^import \(Verif[^ ]*\)/\1/p' "$m.lean" | tr . /; done | sort -u)
  done
  leanc -O2 -o "$dir/conformance" $(for m in $mods; do echo ".lake/build/ir/$m.c"; done)
fi
for f in "$dir"/*.txt; do
  printf '%s: ' "$(basename "$f" .txt)"
  awk "NR % $stride == 0" "$f" | "$dir/conformance" "$build" "$width" || true
done
