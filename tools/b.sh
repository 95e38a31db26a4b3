#!/bin/bash
# build one module and show the errors
cd /verif/lean
for x in "$@"; do lake build Verif.$x 2>&1 | grep -v "linter\|^$" | grep -A14 "error" | head -${LINES_MAX:-70}; done
