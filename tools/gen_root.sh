#!/bin/sh
cd "$(dirname "$0")/../lean" && (for f in $(find Verif -name '*.lean' | sort); do echo "import ${f%.lean}" | tr / .; done) > Verif.lean
