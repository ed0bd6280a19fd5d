#!/bin/bash
# regenerate lean/Verif.lean and MANIFEST.json
cd /verif
python3 - <<'P'
import glob
fs=sorted(f[len('/verif/lean/'):-5].replace('/','.') for f in glob.glob('/verif/lean/Verif/**/*.lean',recursive=True))
open('/verif/lean/Verif.lean','w').write(''.join(f'import {f}\n' for f in fs))
P
python3 gen_manifest.py
