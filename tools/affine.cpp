// Search for the bisection trees given to affine_bnb (untrusted: the kernel checks the tree).
//   affine PROBLEM MAXNODES NSYM   problem written by affine_dump (tools/affine_dump.txt); the tree goes to stderr
// affine arithmetic branch and bound
#include <bits/stdc++.h>
using namespace std;
int NV,NS;
struct AF{double c,r,R;double s[10];};
struct E{char op;int i;double k;E*a,*b;};
long cnt=0;
E*parse(istream&in){string t;in>>t;E*e=new E{t[0],0,0,0,0};
 switch(t[0]){case'v':in>>e->i;break;case'c':{string w;in>>w;e->k=strtod(w.c_str(),0);break;}case'n':e->a=parse(in);break;case'p':in>>e->i;e->a=parse(in);break;default:e->a=parse(in);e->b=parse(in);}return e;}
AF cst(double v){AF g;g.c=v;g.r=g.R=0;for(int i=0;i<NS;i++)g.s[i]=0;return g;}
void fin(AF&g){g.R=g.r;for(int i=0;i<NS;i++)g.R+=fabs(g.s[i]);}
AF mul(const AF&x,const AF&y){AF g;cnt++;g.c=x.c*y.c;for(int i=0;i<NS;i++)g.s[i]=x.c*y.s[i]+y.c*x.s[i];g.r=fabs(x.c)*y.r+fabs(y.c)*x.r+x.R*y.R;g.R=fabs(x.c)*y.R+fabs(y.c)*x.R+x.R*y.R;{bool k=true;for(int i=0;i<NS;i++)if(x.s[i]!=0){k=false;}bool k2=true;for(int i=0;i<NS;i++)if(y.s[i]!=0)k2=false;if(!k&&!k2)fin(g);}return g;}
AF sqr(const AF&x){AF g;cnt++;double h=x.R*x.R/2;g.c=x.c*x.c+h;for(int i=0;i<NS;i++)g.s[i]=2*x.c*x.s[i];g.r=2*fabs(x.c)*x.r+h;g.R=2*fabs(x.c)*x.R+h;return g;}
vector<E*>defs,goals;
bool ev(const vector<AF>&env,E*e,AF&o){
 AF x,y;
 switch(e->op){
 case'v':o=env[e->i];return true;
 case'c':o=cst(e->k);return true;
 case'n':if(!ev(env,e->a,x))return false;o=x;o.c=-x.c;for(int i=0;i<NS;i++)o.s[i]=-x.s[i];return true;
 case'+':case'-':{if(!ev(env,e->a,x)||!ev(env,e->b,y))return false;double k=e->op=='+'?1:-1;o.c=x.c+k*y.c;for(int i=0;i<NS;i++)o.s[i]=x.s[i]+k*y.s[i];o.r=x.r+y.r;o.R=x.R+y.R;return true;}
 case'*':if(!ev(env,e->a,x)||!ev(env,e->b,y))return false;o=mul(x,y);return true;
 case'/':{if(!ev(env,e->a,x)||!ev(env,e->b,y))return false;if(fabs(y.c)<=y.R)return false;double q=1/y.c;double s=fabs(q)*y.R;double er=s*s/(fabs(y.c)-y.R)/2;AF z;z.c=q+(y.c>0?er:-er);for(int i=0;i<NS;i++)z.s[i]=-q*q*y.s[i];z.r=q*q*y.r+er;z.R=q*q*y.R+er;o=mul(x,z);return true;}
 case'p':{if(!ev(env,e->a,x))return false;if(e->i==0){o=cst(1);return true;}
   // x^n : square first when n>=2
   if(e->i==1){o=x;return true;} AF s2=sqr(x);AF p=s2;int k=2;while(k+2<=e->i){p=mul(p,s2);k+=2;}if(k<e->i)p=mul(p,x);o=p;return true;}
 }return false;}
bool best(const vector<pair<double,double>>&box,double&o){vector<AF>env;
 for(int i=0;i<NV;i++){double m=(box[i].first+box[i].second)/2,h=(box[i].second-box[i].first)/2;AF g=cst(m);if(i<NS)g.s[i]=h;else g.r=h;fin(g);env.push_back(g);}
 for(E*d:defs){AF g;if(!ev(env,d,g))return false;fin(g);env.push_back(g);}
 bool ok=false;for(E*d:goals){AF g;if(!ev(env,d,g))continue;fin(g);if(!ok||g.c-g.R>o)o=g.c-g.R;ok=true;}
 return ok;}
string tree;long n=0,maxn;int dm=0;
bool search(vector<pair<double,double>>box,int depth){
 if(++n>maxn||depth>60){printf("FAIL n=%ld depth=%d at",n,depth);for(auto b:box)printf(" [%g,%g]",b.first,b.second);puts("");return false;}
 dm=max(dm,depth);double b;if(best(box,b)&&b>1e-11){tree+='.';return true;}
 int bd=-1;pair<int,double>bs;
 for(int d=0;d<NV;d++){if(box[d].second<=box[d].first)continue;auto l=box,r=box;double m=(box[d].first+box[d].second)/2;l[d].second=r[d].first=m;double x,y;bool p=best(l,x),q=best(r,y);
  pair<int,double>s; if(p&&q)s={2,2*min(x,y)+max(x,y)};else s={p||q?1:0,box[d].second-box[d].first};
  if(bd<0||bs<s){bs=s;bd=d;}}
 tree+=char('a'+bd);auto l=box,r=box;double m=(box[bd].first+box[bd].second)/2;l[bd].second=r[bd].first=m;
 return search(l,depth+1)&&search(r,depth+1);}
int main(int c,char**v){ifstream in(v[1]);maxn=c>2?atol(v[2]):1000000;string t;int nd,ng;in>>t>>NV>>nd>>ng;vector<pair<double,double>>box(NV);for(auto&b:box)in>>b.first>>b.second;
 NS=c>3?min(NV,atoi(v[3])):NV;
 for(int i=0;i<nd;i++)defs.push_back(parse(in));for(int i=0;i<ng;i++)goals.push_back(parse(in));
 double z;cnt=0;best(box,z);long per=cnt;
 bool ok=search(box,0);printf("%s nodes %ld depth %d muls/eval %ld\n",ok?"OK":"FAILED",n,dm,per);if(ok)fprintf(stderr,"%s\n",tree.c_str());}
