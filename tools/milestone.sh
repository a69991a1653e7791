#!/bin/bash
# Build, regenerate the generated files, commit with the given message, check.
set -e
cd "$(dirname "$0")/../lean"
out=$(lake build 2>&1) || { echo "$out" | grep -A25 "error:\|sorry" | head -60; exit 1; }
cd ..
python3 tools/gen_properties.py
python3 tools/gen_manifest.py
bash tools/axioms.sh
git add -A
git commit -qm "$1"
vcheck | tail -1
