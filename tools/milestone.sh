#!/bin/bash
# regenerate Verif.lean, build, manifest, commit, vcheck
cd /verif/lean && (for f in $(ls Verif/*/*.lean | sort); do echo "import $(echo ${f%.lean} | tr / .)"; done) > Verif.lean && lake build 2>&1 | tail -3 && cd .. && python3 tools/gen_manifest.py && python3 tools/gen_design.py && git add -A && git commit -qm "$1" && vcheck | tail -1
