#!/bin/sh
# Regenerate the derived files, build, check axioms, commit with the given message.
cd "$(dirname "$0")/.." || exit 1
python3 tools/gen_properties.py > /tmp/gp.out && python3 tools/gen_manifest.py && python3 tools/gen_root.py && python3 tools/gen_index.py || exit 1
(cd lean && lake build > /tmp/build.out 2>&1) || { grep -A5 "^error" /tmp/build.out | head -40; exit 1; }
sh tools/axioms.sh && git add -A && git commit -qm "$1" && git log --oneline -1
