import sys
f='/verif/tools/gen_properties.py'
s=open(f).read()
i=s.index('\nwith open(os.path.join')
s=s[:i]+sys.stdin.read().rstrip('\n')+'\n'+s[i:]
open(f,'w').write(s)
