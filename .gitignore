lean/.lake/
lean/lake-manifest.json
build/
