import re,sys
s=open('/verif/tools/props.py').read()
def st(pid,title,statement,why):
    global s
    pat=re.compile(r'p\("%s","(?:[^"\\]|\\.)*","(?:[^"\\]|\\.)*","((?:[^"\\]|\\.)*)","(?:[^"\\]|\\.)*",'%pid)
    m=pat.search(s); assert m,pid
    q=lambda x:x.replace('\\','\\\\').replace('"','\\"')
    s=s[:m.start()]+'p("%s","%s","%s","%s","%s",'%(pid,q(title),q(statement),m.group(1),q(why))+s[m.end():]
exec(open(sys.argv[1]).read())
open('/verif/tools/props.py','w').write(s)
