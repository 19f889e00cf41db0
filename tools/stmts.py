import re,sys
for p in sys.argv[1:]:
    s=open(p).read()
    print("=====",p)
    # split into decl blocks
    for m in re.finditer(r'((?:/--(?:.(?!-/))*.-/\n)?)^(theorem (C\d\d\w*).*?)(?= := by\n| :=\n| := \S)',s,re.M|re.S):
        print(m.group(1)+m.group(2)); print()
