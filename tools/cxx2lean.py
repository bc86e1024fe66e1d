"""A small C++ arithmetic expression parser and Lean printer (used by the model generators)."""
import re
TOK=re.compile(r"\s*(?:(\d+\.\d*(?:[eE][-+]?\d+)?|\.\d+(?:[eE][-+]?\d+)?|\d+[eE][-+]?\d+|\d+)|([A-Za-z_][A-Za-z_0-9:.]*)|(.))",re.S)
def tokenize(s):
    out=[];pos=0
    s=s.strip()
    while pos<len(s):
        m=TOK.match(s,pos)
        pos=m.end()
        if m.group(1): out.append(('num',m.group(1)))
        elif m.group(2): out.append(('id',m.group(2)))
        elif m.group(3).strip(): out.append(('op',m.group(3)))
    return out
class P:
    def __init__(self,s): self.t=tokenize(s); self.i=0
    def peek(self): return self.t[self.i] if self.i<len(self.t) else ('eof','')
    def next(self): r=self.peek(); self.i+=1; return r
    def expect(self,v):
        k,x=self.next()
        assert x==v,(x,v,self.t[self.i-5:self.i+5])
    def expr(self):
        l=self.term()
        while self.peek() in(('op','+'),('op','-')):
            o=self.next()[1]; l=(o,l,self.term())
        return l
    def term(self):
        l=self.unary()
        while self.peek() in(('op','*'),('op','/')):
            o=self.next()[1]; l=(o,l,self.unary())
        return l
    def unary(self):
        if self.peek()==('op','-'):
            self.next(); return('neg',self.unary())
        if self.peek()==('op','+'):
            self.next(); return self.unary()
        return self.prim()
    def prim(self):
        k,v=self.next()
        if k=='num': return('num',v)
        if v=='(':
            e=self.expr(); self.expect(')'); return e
        assert k=='id',(k,v)
        if self.peek()==('op','('):
            self.next(); a=[]
            if self.peek()!=('op',')'):
                a.append(self.expr())
                while self.peek()==('op',','):
                    self.next(); a.append(self.expr())
            self.expect(')')
            return('call',v,a)
        return('id',v)
def parse(s):
    p=P(s); e=p.expr(); assert p.peek()[0]=='eof',p.t[p.i:p.i+8]; return e
def intlit(v):
    """integer valued literal, or None"""
    from fractions import Fraction
    f=Fraction(v if not v.endswith('.') else v+'0')
    return f
PREC={'+':65,'-':65,'*':70,'/':70}
def lean(e,atom,call,prec=0):
    """print; left-associative operators with C++ evaluation order kept"""
    k=e[0]
    if k in PREC:
        p=PREC[k]
        s=lean(e[1],atom,call,p)+f" {k} "+lean(e[2],atom,call,p+1)
        return '('+s+')' if p<prec else s
    if k=='neg':
        s='-'+lean(e[1],atom,call,76)
        return '('+s+')' if prec>65 else s
    if k=='num':
        f=intlit(e[1])
        if f.denominator==1: return str(f.numerator)
        s=f"lit ({f.numerator}/{f.denominator})"
        return '('+s+')' if prec>=75 else s
    if k=='id': return atom(e[1])
    if k=='call':
        s=call(e[1],e[2],lambda x,q=0: lean(x,atom,call,q))
        return '('+s+')' if prec>75 else s
    raise Exception(k)
