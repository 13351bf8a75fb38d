#!/bin/sh
# Regenerates lean/Verif.lean from the modules present.
cd "$(dirname "$0")/../lean" || exit 1
find Verif -name '*.lean' | sed 's/\.lean$//; s#/#.#g; s/^/import /' | LC_ALL=C sort > Verif.lean
