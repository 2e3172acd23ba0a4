#!/bin/bash
# regenerate Verif.lean and MANIFEST.json, build, commit, vcheck
cd /verif/lean; find Verif -name '*.lean' | sort | sed 's/\.lean$//; s#/#.#g; s/^/import /' > Verif.lean
set -o pipefail; lake build 2>&1 | grep -E "error|Build" | tail -5 || exit 1
lake build >/dev/null 2>&1 || { echo BUILD FAILED; exit 1; }
python3 /verif/tools/manifest.py | tail -c 300; cd /verif; git add -A; git commit -qm "$1"; vcheck | tail -1
