#!/bin/bash
# regenerate lean/Verif.lean: import every module
cd /verif/lean
find Verif -name '*.lean' | sort | sed 's#/#.#g; s#\.lean$##; s#^#import #' > Verif.lean
