*.pkl
__pycache__
