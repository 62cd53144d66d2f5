tools/__pycache__/
lean/lake-manifest.json
