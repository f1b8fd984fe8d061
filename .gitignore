__pycache__/
*.pyc
