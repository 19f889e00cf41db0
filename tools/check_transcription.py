#!/usr/bin/env python3
"""Checks the transcription against /repo: every macro table row for row, and every citation."""
import re, sys, os
R='/repo/'; L='/verif/lean/Verif/Model/'
bad=0
def norm(s): return re.sub(r'\s+',' ',s).strip()
def strip_comments(s): return re.sub(r'//[^\n]*','',s)
def q(xs): return '['+', '.join('"%s"'%x.strip() for x in xs)+']'
def lean_rows(file,name):
    s=open(L+file).read()
    i=s.index(f'def {name} :'); i=s.index(':= [',i)+4
    depth=1;j=i
    while depth:
        depth+={'[':1,']':-1}.get(s[j],0); j+=1
    body=s[i:j-1]; rows=[];d=0;st=None
    for k,c in enumerate(body):
        if c=='⟨':
            if d==0: st=k
            d+=1
        if c=='⟩':
            d-=1
            if d==0: rows.append(norm(body[st:k+1]))
    return rows
def compare(what,a,b):
    global bad
    if a==b: print('ok  ',what,len(a),'rows')
    else:
        bad+=1; print('DIFF',what)
        for x in a:
            if x not in b: print('   repo only:',x)
        for x in b:
            if x not in a: print('   lean only:',x)
def block(s,macro):
    i=s.index('\n'+macro+' {') if ('\n'+macro+' {') in s else s.index(macro+' {')
    i=s.index('{',i); j=i+1; d=1
    while d:
        d+={'{':1,'}':-1}.get(s[j],0); j+=1
    return s[i+1:j-1]
def math(t):
    m=re.match(r'(mint|cgmath)::(Vector|Point|ColumnMatrix|Matrix)(\d)<(\w+)>$',t)
    kind={'Vector':'vector','Point':'point'}.get(m.group(2),'matrix')
    return f'⟨.{m.group(1)}, .{kind}, .{m.group(4)}, {m.group(3)}⟩'
for lay,n in(('std140','140'),('std430','430')):
    s=open(R+f'src/{lay}/primitives.rs').read()
    b=block(s,'vectors!')
    rows=[]
    for m in re.finditer(r'align\((\d+)\)\s+(\w+)\s+(\w+)<(\w+)>\(([^)]*)\)',b):
        pr='.Bool' if m.group(4)=='Bool' else '.scalar .'+m.group(4)
        rows.append(f'⟨{m.group(1)}, "{m.group(2)}", "{m.group(3)}", {pr}, {q(m.group(5).split(","))}⟩')
    compare(f'{lay} vectors!',rows,lean_rows('Primitives.lean','vectors'+n))
    b=block(s,'matrices!')
    rows=[]
    for m in re.finditer(r'align\((\d+)\)\s+(\w+)\s+(\w+)\s*\{([^}]*)\}',b):
        fs=[]
        for f in re.findall(r'(\w+):\s*([^,]+),',m.group(4)):
            a=re.match(r'\[(\w+); (\d+)\]',f[1])
            t=f'.array .{a.group(1)} {a.group(2)}' if a else ('.scalar .'+f[1] if f[1][0] in 'fiu' else f'.vec "{f[1]}"')
            fs.append(f'("{f[0]}", {t})')
        rows.append(f'⟨{m.group(1)}, "{m.group(2)}", "{m.group(3)}", [{", ".join(fs)}]⟩')
    compare(f'{lay} matrices!',rows,lean_rows('Primitives.lean','matrices'+n))
for lib in('mint','cgmath'):
    b=strip_comments(block(open(R+f'src/imp/imp_{lib}.rs').read(),'easy_impl!'))
    rows=[f'⟨"{m.group(1)}", {math(m.group(2))}, {q(m.group(3).split(","))}⟩' for m in re.finditer(r'(\w+)\s+([\w:]+<\w+>)\s*\{([^}]*)\}',b)]
    compare(f'imp_{lib}',rows,lean_rows('Imp.lean',lib+'Rows'))
for lib in('glam','nalgebra'):
    b=strip_comments(block(open(R+f'src/imp/imp_{lib}.rs').read(),'minty_impl!'))
    rows=[f'⟨{math(m.group(1))}, "{m.group(2)}"⟩' for m in re.finditer(r'([\w:]+<\w+>)\s*=>\s*([\w:<>]+),',b)]
    compare(f'imp_{lib}',rows,lean_rows('Imp.lean',lib+'Rows'))
# textual identity of the parametric files
def sub(s): return norm(re.sub(r'\s*#\[deprecated.*?\n    \}\n','\n',s.replace('430','140'),flags=re.S))
for f in('traits.rs','sizer.rs','writer.rs'):
    code=lambda s: norm('\n'.join(l for l in s.split('\n') if not l.strip().startswith('//')))
    a=code(open(R+'src/std140/'+f).read()); b=code(open(R+'src/std430/'+f).read().replace('430','140'))
    print('same' if a==b else 'differ', f, '' if a==b else f'({len(a)} vs {len(b)} characters)')
# citations
files={}
for dp,_,fn in os.walk(R):
    for f in fn:
        if f.endswith('.rs'): files[os.path.relpath(os.path.join(dp,f),R)]=len(open(os.path.join(dp,f)).read().split('\n'))
ncite=0
for f in sorted(os.listdir(L)):
    s=open(L+f).read()
    for m in re.finditer(r'([\w/\-]+\.rs):([\d,\- ]+\d|\d+)',s):
        c=[x for x in files if x==m.group(1) or x.endswith('/'+m.group(1))]
        if not c: bad+=1; print('no such file',f,m.group(0)); continue
        for r in m.group(2).split(','):
            hi=int(r.split('-')[-1]); ncite+=1
            if hi>max(files[x] for x in c): bad+=1; print('line out of range',f,m.group(0))
    # every definition has a doc comment
    lines=s.split('\n')
    for i,l in enumerate(lines):
        m=re.match(r'(?:def|structure|inductive|abbrev)\s+(\S+)',l)
        if m:
            j=i-1
            while j>=0 and lines[j].startswith('@['): j-=1
            if not lines[j].rstrip().endswith('-/'): bad+=1; print('no comment',f,m.group(1))
print(ncite,'citations checked;','PROBLEMS' if bad else 'no problems')
sys.exit(bad>0)
