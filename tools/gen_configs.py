"""Write lean/Verif/Model/ConfigFiles.lean from /repo/config_files/*.yaml.

The parser handles what is in these files: nested mappings, lists of scalars (block or flow), comments,
text with or without quotes, whole numbers, numbers with a point, true and false, null.
"""
import re,glob,os
def scalar(s):
    s=s.strip()
    if s=='' or s in('null','~','Null','NULL'): return None
    if s[0] in '"\'': 
        assert s[-1]==s[0]; return s[1:-1]
    if s.startswith('['):
        return [scalar(x) for x in s[1:-1].split(',')]
    if s.lower() in('true','yes','on'): return True
    if s.lower() in('false','no','off'): return False
    if re.fullmatch(r'[-+]?\d+',s): return int(s)
    if re.fullmatch(r'[-+]?(\d+\.\d*|\.\d+)([eE][-+]\d+)?',s): return ('num',s)
    return s
def strip(l):
    out='';q=None
    for i,c in enumerate(l):
        if q: 
            if c==q:q=None
        elif c in '"\'': q=c
        elif c=='#' and (i==0 or l[i-1] in ' \t'): break
        out+=c
    return out.rstrip()
def parse(lines):
    # lines: list of (indent,text)
    def block(i,ind):
        if lines[i][1].startswith('- ') or lines[i][1]=='-':
            r=[]
            while i<len(lines) and lines[i][0]==ind and lines[i][1].startswith('-'):
                r.append(scalar(lines[i][1][1:])); i+=1
            return r,i
        d=[]
        while i<len(lines) and lines[i][0]==ind:
            k,_,v=lines[i][1].partition(':')
            k=k.strip().strip('"\'')
            if v.strip()!='':
                d.append((k,scalar(v))); i+=1
            else:
                i+=1
                if i<len(lines) and (lines[i][0]>ind or (lines[i][0]==ind and lines[i][1].startswith('- '))):
                    x,i=block(i,lines[i][0]); d.append((k,x))
                else: d.append((k,None))
        return ('dict',d),i
    r,i=block(0,lines[0][0])
    assert i==len(lines),(i,lines[i])
    return r
def load(f):
    ls=[]
    for l in open(f):
        l=strip(l.rstrip('\n'))
        if l.strip()=='' or l.strip()=='---': continue
        ls.append((len(l)-len(l.lstrip()),l.strip()))
    return parse(ls)
files=sorted(glob.glob('/repo/config_files/*.yaml'),key=lambda f:[int(x) if x.isdigit() else x for x in re.split(r'(\d+)',f)])


from fractions import Fraction


def lean(v):
    if v is None:
        return '.null'
    if v is True or v is False:
        return '.bool ' + str(v).lower()
    if isinstance(v, int):
        return '.int ' + (str(v) if v >= 0 else '(%d)' % v)
    if isinstance(v, str):
        assert '"' not in v and '\\' not in v
        return '.str "%s"' % v
    if isinstance(v, list):
        return '.list [' + ', '.join(lean(x) for x in v) + ']'
    if v[0] == 'num':
        q = Fraction(v[1])
        return '.num (mkRat %s %d)' % (q.numerator if q >= 0 else '(%d)' % q.numerator, q.denominator)
    assert v[0] == 'dict'
    return '.dict [' + ', '.join('("%s", %s)' % (k, lean(x)) for k, x in v[1]) + ']'


def main():
    out = [
        'import Verif.Model.Config', '',
        '/-!',
        'The files in /repo/config_files, as `yaml.load` reads them.  Written by tools/gen_configs.py; numbers with a point are',
        'kept exactly.', '-/', '', 'namespace Pizza', '',
    ]
    names = []
    for f in files:
        base = os.path.basename(f)[:-len('.yaml')]
        name = 'cfg_' + base.replace('des-pizza-slices-', '').replace('-', '_')
        names.append((base, name))
        nlines = len(open(f).read().splitlines())
        out += ['/-- config_files/%s.yaml:1-%d. -/' % (base, nlines), 'def %s : Yaml := .dict [' % name]
        for i, (k, v) in enumerate(load(f)[1]):
            end = '' if i + 1 == len(load(f)[1]) else ','
            if isinstance(v, tuple) and v[0] == 'dict':
                out.append('  ("%s", .dict [' % k)
                out.append(',\n'.join('    ("%s", %s)' % (a, lean(x)) for a, x in v[1]) + '])' + end)
            else:
                out.append('  ("%s", %s)' % (k, lean(v)) + end)
        out[-1] += ']'
        out.append('')
    out += ['/-- All files in config_files, by name. -/', 'def shippedConfigs : List (String × Yaml) := [']
    out.append(',\n'.join('  ("%s", %s)' % x for x in names) + ']')
    out += ['', 'end Pizza', '']
    p = os.path.join(os.path.dirname(os.path.abspath(__file__)), '..', 'lean', 'Verif', 'Model', 'ConfigFiles.lean')
    open(p, 'w').write('\n'.join(out))


if __name__ == '__main__':
    main()
