#!/usr/bin/env python3
"""Check the /repo citations of the model: the file exists, the range is inside it, and the cited text
mentions the thing modelled (the last component of the definition's name, or its type)."""
import re, glob, os, sys
root=os.path.dirname(os.path.dirname(os.path.abspath(__file__)))
bad=0; n=0; nocite=[]
for f in sorted(glob.glob(root+'/lean/Verif/Model/**/*.lean', recursive=True)):
    s=open(f).read()
    for m in re.finditer(r'/--(.*?)-/\s*\n((?:@\[.*?\]\s*)?(?:private )?(?:def|abbrev|structure|inductive|instance|class)\b[^\n]*)', s, re.S):
        c, d = m.group(1), m.group(2)
        cites = re.findall(r'((?:src|examples)/[\w/.]+\.rs):([\d,\s-]+)', c)
        name = re.sub(r'^(private )?(def|abbrev|structure|inductive|class)\s+','',d).split()[0] if not d.startswith('instance') else d
        for path, rng in cites:
            try: L=open('/repo/'+path).read().split('\n')
            except OSError: print('NOFILE',f,path); bad+=1; continue
            for r in re.findall(r'\d+(?:-\d+)?', rng):
                a,*b=r.split('-'); a=int(a); b=int(b[0]) if b else a
                n+=1
                if b>len(L) or a>b: print('RANGE',os.path.relpath(f,root),d[:60],path,r); bad+=1; continue
                txt='\n'.join(L[max(0,a-1):b])
                last=name.split('.')[-1]
                words=[last]+re.findall(r'[A-Z]\w+',d)
                if not any(w in txt for w in words) and '-v' in sys.argv:
                    print('?',os.path.relpath(f,root),'|',d[:70],'|',path,r,'|',L[a-1].strip()[:60])
    # definitions without doc comment
    for m in re.finditer(r'(?:^|\n)(?!/--)([^\n]*)\n((?:def|abbrev|structure|inductive|instance|class)\b[^\n]*)', s):
        if not m.group(1).rstrip().endswith('-/'):
            nocite.append((os.path.relpath(f,root), m.group(2)[:80]))
print(n,'citations',bad,'bad')
for x in nocite: print('NOCITE',*x)
