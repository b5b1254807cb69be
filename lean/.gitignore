/.lake/
