#!/bin/sh
# Regenerate the generated files and build.
cd "$(dirname "$0")/.." || exit 1
set -e
python3 tools/imports.py
python3 tools/props.py
python3 tools/manifest.py
set +e
log=$(mktemp)
cd lean && lake build > "$log" 2>&1
rc=$?
grep -v "^✔\|^ℹ" "$log"
rm -f "$log"
exit $rc
