#!/bin/sh
# Compile the model of the compiler, run it on the ASN.1 files of /repo/specs and compare the items it generates
# with those of the code which the project generated for the same files. Run after `lake build` in lean.
# Attributes that only say `extensible = false` are left out of the comparison: the generator writes them in some
# places and omits them in others, and the model keeps the value, not the spelling.
set -e
here=$(cd "$(dirname "$0")/.." && pwd)
out=${1:-/tmp/validate}
mkdir -p "$out"
ir=$here/lean/.lake/build/ir/Verif
cp "$here/lean/Verif/Tools/Compile.lean" "$out/Compile.lean"
cd "$out"
LEAN_PATH=$here/lean/.lake/build/lib/lean lean -c Compile.c Compile.lean
leanc -O1 -o compile Compile.c "$ir"/Compiler/*.c "$ir"/Codec/*.c "$ir"/Derive/*.c "$ir"/Bits.c
ulimit -s unlimited
plain() { sed -E 's/ ?\b(sz_)?extensible=false//; s/\[ /[/; s/ \]/]/'; }
for p in ngap:13-ngap s1ap:12-s1ap ranap:11-ranap; do
  name=${p%%:*}
  ./compile /repo/specs/"$name"/*.asn 2> "$name.log" | plain > "$name.model"
  python3 "$here/tools/items.py" /repo/examples/tests/"${p##*:}".rs | plain > "$name.code"
  if cmp -s "$name.model" "$name.code"; then echo "$name: $(wc -l < "$name.code") items, all equal"
  else echo "$name: differs"; diff "$name.model" "$name.code" | head; fi
done
