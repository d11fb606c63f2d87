#!/bin/sh
# Rebuild lean/Verif.lean so that it imports every module under lean/Verif.
cd "$(dirname "$0")/../lean" && find Verif -name '*.lean' | sort | sed 's#/#.#g; s#\.lean$##; s#^#import #' > Verif.lean
