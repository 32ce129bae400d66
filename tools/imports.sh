#!/bin/sh
# regenerate lean/Verif.lean (imports every module)
cd "$(dirname "$0")/../lean" && find Verif -name '*.lean' | sort | sed 's#/#.#g; s#\.lean$##; s#^#import #' > Verif.lean
