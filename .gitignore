lean/.lake/
*.olean
