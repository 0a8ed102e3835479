lean/.lake/
lean/build/
