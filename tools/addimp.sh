#!/bin/sh
# add imports of property modules to lean/Verif.lean
for m in "$@"; do grep -qx "import Verif.Props.$m" /verif/lean/Verif.lean || echo "import Verif.Props.$m" >> /verif/lean/Verif.lean; done
