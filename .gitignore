.lake/
build/
*.olean
*.ilean
