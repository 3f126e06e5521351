{"id": "C01", "title": "Polar/cartesian conversion round-trips", "statement": "Converting any 2-vector to polar coordinates and back returns the same vector (including the zero vector); with the default positive=True the returned angle is in [0, 2*pi) and the radius is the euclidean length.", "quantifier": "all real 2-vectors, both values of `positive`", "why_tests_cant": "The angle branch cut and the zero vector are measure-zero inputs; a test can only sample directions.", "anchors": ["lcp_physics/physics/utils.py:cart_to_polar", "lcp_physics/physics/utils.py:polar_to_cart"]}
{"id": "C02", "title": "Rotations are rigid and compose", "statement": "rotation_matrix(a) applied to vectors preserves dot and cross products (hence lengths, angles and orientation); rotating by a then b equals rotating by a+b; rotating by a then -a is the identity. left_orthogonal returns a perpendicular vector of the same length.", "quantifier": "all real angles and vectors", "why_tests_cant": "Universally quantified algebraic law.", "anchors": ["lcp_physics/physics/utils.py:rotation_matrix", "lcp_physics/physics/utils.py:left_orthogonal", "lcp_physics/physics/utils.py:cross_2d"]}
{"id": "C03", "title": "Every accepted Hull has a well-defined centroid and keeps its vertices where the caller put them", "statement": "If Hull(ref_point, vertices) does not raise, the centroid's denominator is non-zero, the body's position is ref_point+centroid, and for every vertex, position + stored vertex = ref_point + given vertex. It raises exactly when fewer than 3 vertices are given or the vertex order fails the orientation test.", "quantifier": "all vertex lists of any length, all reference points", "why_tests_cant": "Unbounded number of vertices.", "anchors": ["lcp_physics/physics/bodies.py:Hull.__init__", "lcp_physics/physics/bodies.py:Hull._get_centroid", "lcp_physics/physics/bodies.py:Hull._is_clockwise"]}
{"id": "C04", "title": "Hull centroid is translation-equivariant and zero in the body frame", "statement": "Shifting all vertices by a vector shifts the centroid by the same vector; after construction the centroid of the stored vertices is the origin.", "quantifier": "all accepted vertex lists, all shifts", "why_tests_cant": "Unbounded vertex lists.", "anchors": ["lcp_physics/physics/bodies.py:Hull._get_centroid"]}
{"id": "C05", "title": "Bodies are rigid: vertices always equal the initial vertices rotated by the current angle", "statement": "After any sequence of set_p and move calls on a Hull or Rect, the stored vertices are exactly the initial body-frame vertices rotated by the change of the angle coordinate since construction; so side lengths, pairwise distances and orientation never change, and returning to a pose returns the vertices.", "quantifier": "all hulls, all finite sequences of set_p/move with arbitrary poses, velocities and time steps", "why_tests_cant": "Invariant over unbounded histories.", "anchors": ["lcp_physics/physics/bodies.py:Hull.set_p", "lcp_physics/physics/bodies.py:Hull.rotate_verts", "lcp_physics/physics/bodies.py:Rect.rotate_verts", "lcp_physics/physics/bodies.py:Body.move"]}
{"id": "C06", "title": "Rect is the Hull with the same corners", "statement": "A Rect(pos, dims) with positive dims has position exactly pos[-2:], the same vertices as the Hull built from its four corners, the same moment of inertia as that Hull, and stays equal to it under any sequence of set_p/move calls (Rect's 2-vertex rotation shortcut is sound).", "quantifier": "all positive dims, all poses, all op sequences", "why_tests_cant": "Two implementations agree for every input and history.", "anchors": ["lcp_physics/physics/bodies.py:Rect.__init__", "lcp_physics/physics/bodies.py:Rect._get_ang_inertia", "lcp_physics/physics/bodies.py:Rect.rotate_verts", "lcp_physics/physics/bodies.py:Hull._get_ang_inertia"]}
{"id": "C07", "title": "Inertia is positive, pose-independent, linear in mass and quadratic in size; the mass matrix is positive definite", "statement": "For positive mass and an accepted Hull / positive-radius Circle / positive-dims Rect the angular inertia is positive; it does not change when the body rotates; scales linearly with mass and quadratically with a uniform scaling of the vertices. The world mass matrix is symmetric positive definite.", "quantifier": "all bodies, masses, scale factors, angles; any number of bodies", "why_tests_cant": "Universally quantified; PD is a statement over all vectors.", "anchors": ["lcp_physics/physics/bodies.py:Hull._get_ang_inertia", "lcp_physics/physics/bodies.py:Circle._get_ang_inertia", "lcp_physics/physics/bodies.py:Body.__init__", "lcp_physics/physics/world.py:World.__init__"]}
{"id": "C08", "title": "Broad-phase orientation matches the body", "statement": "The quaternion handed to the collision library by set_p represents the rotation by angle+pi about the z axis, so a box geometry (which is centrally symmetric) occupies exactly the same region as the body rotated by `angle`.", "quantifier": "all angles, all box half-extents, all points", "why_tests_cant": "All real angles.", "anchors": ["lcp_physics/physics/bodies.py:Body.set_p", "lcp_physics/physics/bodies.py:Rect._create_geom"]}
{"id": "C09", "title": "Broad phase never hides a contact", "statement": "If two bodies are close enough for the narrow phase to report a contact (gap at most the world's eps), then their broad-phase bounding boxes overlap, provided the bodies' own eps values sum to at least the world's eps; the proviso is necessary.", "quantifier": "all circles/hulls/rects in all poses", "why_tests_cant": "All pairs of shapes and poses.", "anchors": ["lcp_physics/physics/bodies.py:Circle._create_geom", "lcp_physics/physics/bodies.py:Hull._create_geom", "lcp_physics/physics/bodies.py:Rect._create_geom", "lcp_physics/physics/contacts.py:DiffContactHandler.__call__"]}
{"id": "C10", "title": "add_no_contact is symmetric and always respected", "statement": "After any sequence of add_no_contact calls the exclusion relation is symmetric and contains exactly the requested pairs; an excluded pair never yields a contact, whichever order the broad phase presents the two geometries in.", "quantifier": "all call sequences, all body pairs, both presentation orders", "why_tests_cant": "Histories and library-chosen order.", "anchors": ["lcp_physics/physics/bodies.py:Body.add_no_contact", "lcp_physics/physics/contacts.py:DiffContactHandler.__call__"]}
{"id": "C11", "title": "Circle-circle contact is exact", "statement": "Two circles yield a contact iff the gap between them is at most eps; the reported penetration is the (signed) overlap r1+r2-distance, the normal is the unit vector from body 2 to body 1, and the two contact points coincide in the world frame at the middle of the overlap. Concentric circles are the only case with an undefined normal.", "quantifier": "all radii, positions, eps", "why_tests_cant": "All real geometries.", "anchors": ["lcp_physics/physics/contacts.py:DiffContactHandler.__call__"]}
{"id": "C12", "title": "Every reported contact is well-formed", "statement": "Every contact produced by the default contact handler (circle-circle, circle-hull in either order, hull-hull) has penetration at least -eps, a unit normal (unless flagged NaN) and contact offsets p1,p2 with body1.pos+p1 = body2.pos+p2.", "quantifier": "all pairs of bodies, poses, warm-start indices and random GJK seeds", "why_tests_cant": "All geometries and hidden states.", "anchors": ["lcp_physics/physics/contacts.py:DiffContactHandler.__call__"]}
{"id": "C13", "title": "Support mapping is a true argmax for hulls containing their reference point", "statement": "For a non-empty vertex list whose convex hull contains the origin, get_support returns a vertex maximising the dot product with the direction (the last one among ties) and its index; without that hypothesis it can raise (all dot products below -1).", "quantifier": "all vertex lists, all directions", "why_tests_cant": "Unbounded vertex lists; the -1 initial value only matters for rare inputs.", "anchors": ["lcp_physics/physics/contacts.py:DiffContactHandler.get_support"]}
{"id": "C14", "title": "get_closest returns the nearest point of the simplex and never raises on a non-degenerate one", "statement": "For 1 point, 2 distinct points or 3 non-collinear points, get_closest returns the point of their convex hull nearest to the query and indices of the simplex points whose open convex hull contains it; the 'does not satisfy any condition' error is unreachable.", "quantifier": "all query points and all non-degenerate simplices", "why_tests_cant": "Region coverage over the whole plane.", "anchors": ["lcp_physics/physics/contacts.py:DiffContactHandler.get_closest", "lcp_physics/physics/contacts.py:DiffContactHandler.get_barycentric_coords"]}
{"id": "C15", "title": "GJK terminates with the nearest point of the hull", "statement": "For hulls with no three collinear vertices and containing their reference point, the GJK loop terminates for every random start vertex and every query point; when it exits with fewer than 3 simplex points the returned point is the point of the hull nearest to the circle centre, and when it exits with 3 the centre is inside the hull. With three collinear vertices it can raise.", "quantifier": "all such hulls, all query points, all start vertices", "why_tests_cant": "Termination and correctness of an unbounded loop.", "anchors": ["lcp_physics/physics/contacts.py:DiffContactHandler.__call__"]}
{"id": "C16", "title": "Circle-hull contact is exact when the centre is outside the hull", "statement": "If the circle's centre is outside the hull, a contact is reported iff distance(centre, hull) - radius <= eps, its penetration is radius - distance, its normal is the unit vector from the nearest hull point to the centre, and swapping the order in which the bodies are presented negates the normal and swaps the contact points.", "quantifier": "all circles and hulls, both orders, all seeds", "why_tests_cant": "All geometries.", "anchors": ["lcp_physics/physics/contacts.py:DiffContactHandler.__call__"]}
{"id": "C17", "title": "The separating-axis exit is sound and the SAT warm start is unobservable", "statement": "If the separating axis test of two convex hulls reports a gap larger than eps then the hulls are disjoint with every pair of points more than eps apart; and whether a gap is reported, and the best separation value, do not depend on the cached starting edge.", "quantifier": "all convex polygons, all poses, all cached indices", "why_tests_cant": "Hidden cache state and unbounded vertex counts.", "anchors": ["lcp_physics/physics/contacts.py:DiffContactHandler.test_separations"]}
{"id": "C18", "title": "Segment clipping keeps exactly the inside part", "statement": "clip_segment_to_line on a segment with at least one end inside returns only points of the segment that are on the inner side, keeps every inside endpoint, and its result spans exactly the inside part of the segment; if both ends are strictly outside and not parallel to the line it returns a single extrapolated point.", "quantifier": "all segments, normals, offsets", "why_tests_cant": "All real inputs including boundary cases.", "anchors": ["lcp_physics/physics/contacts.py:DiffContactHandler.clip_segment_to_line"]}
{"id": "C19", "title": "Hull-hull contact points lie on the reference edge (true for Rect, false for general Hull)", "statement": "For a contact between two rectangles every reported contact point, in the frame of the reference body, lies on the reference edge segment. For general hulls this fails because the clip planes assume the edge midpoint is opposite the centroid.", "quantifier": "all rect pairs and poses", "why_tests_cant": "All geometries.", "anchors": ["lcp_physics/physics/contacts.py:DiffContactHandler.__call__", "lcp_physics/physics/contacts.py:DiffContactHandler.clip_segment_to_line"]}
{"id": "C20", "title": "A step is only accepted without interpenetration", "statement": "In strict mode, whenever a step returns, every contact then recorded has penetration at most tol (post-stabilization off); construction of a strict world raises iff some initial contact exceeds tol. In non-strict mode a step returns with a deeper contact only if the step had been shrunk below a quarter of the world's dt.", "quantifier": "all worlds, engines, contact finders, dt, histories", "why_tests_cant": "All engines and contact histories.", "anchors": ["lcp_physics/physics/world.py:World.step_dt", "lcp_physics/physics/world.py:World.__init__"]}
{"id": "C21", "title": "Time advances by dt/2^k and rejected sub-steps leave no trace on the bodies", "statement": "When a step with time increment dt returns, world time has increased by dt/2^k where k is the number of rejected attempts, every body's pose is exactly start pose + velocity*dt/2^k, hull vertices match that pose, and velocities are those computed by the engine.", "quantifier": "all worlds, engines, contact finders, numbers of rejections", "why_tests_cant": "Unbounded number of rollbacks.", "anchors": ["lcp_physics/physics/world.py:World.step_dt", "lcp_physics/physics/world.py:World.set_p", "lcp_physics/physics/bodies.py:Hull.set_p"]}
{"id": "C22", "title": "Rollback restores joints completely", "statement": "After a rejected sub-step every joint's state equals its state at the beginning of the step, so that after the accepted sub-step both angle records of a revolute joint have advanced by angular velocity times the accepted dt. (Holds for the first body's angle and anchor; fails for the second body's angle record rot2, which is saved but never restored.)", "quantifier": "all worlds and numbers of rejections", "why_tests_cant": "Histories with rejections.", "anchors": ["lcp_physics/physics/world.py:World.step_dt", "lcp_physics/physics/constraints.py:Joint.move", "lcp_physics/physics/constraints.py:Joint.update_pos"]}
{"id": "C23", "title": "Non-strict stepping always terminates", "statement": "With strict_no_penetration=False a step of size at most dt makes at most 4 attempts and accepts an increment of at least min(requested, dt/8).", "quantifier": "all worlds, engines, contact finders, positive dt", "why_tests_cant": "Termination for every behaviour of the contact finder.", "anchors": ["lcp_physics/physics/world.py:World.step_dt"]}
{"id": "C24", "title": "step(fixed_dt=True) lands exactly on t+dt", "statement": "A fixed-dt step never overshoots the target time, and when it returns world time equals start time + dt exactly; in non-strict mode it always returns after at most 8 sub-steps.", "quantifier": "all worlds, engines, contact finders", "why_tests_cant": "Unbounded sub-step loop.", "anchors": ["lcp_physics/physics/world.py:World.step"]}
{"id": "C25", "title": "World time strictly increases; run_world terminates and overshoots by less than one step", "statement": "With positive dt every returning step strictly increases world time; run_world in non-strict mode terminates, with final time in [run_time, run_time+dt) and at most ceil(8*run_time/dt) steps.", "quantifier": "all worlds, run times", "why_tests_cant": "Unbounded loop.", "anchors": ["lcp_physics/physics/world.py:run_world", "lcp_physics/physics/world.py:World.step_dt"]}
{"id": "C26", "title": "Strict-mode termination is characterised by the contact finder", "statement": "In strict mode a step returns iff for some k the poses at dt/2^k have no contact deeper than tol; it then returns with the least such k; otherwise it never returns.", "quantifier": "all worlds, engines, contact finders (deterministic)", "why_tests_cant": "Liveness/non-termination.", "anchors": ["lcp_physics/physics/world.py:World.step_dt"]}
{"id": "C27", "title": "Circle worlds never interpenetrate; strict stepping terminates except for an identified case", "statement": "For a world made only of circles with the default contact handler and no post-stabilization, constructed without penetration beyond tol: every state reachable by strict steps has all pairwise penetrations (of non-excluded pairs) at most tol; and with exact LCP solutions every strict step terminates provided each contact that is exactly tol deep is not separating or has zero mean restitution (so always when restitution is zero). The proviso is needed: for every restitution in (0,1] there is an accepted two-circle world whose strict step never returns.", "quantifier": "all circle worlds, all histories, all external forces, all step lengths", "why_tests_cant": "Global safety and liveness over all histories; the hang needs a contact at exactly tol.", "anchors": ["lcp_physics/physics/world.py:World.step_dt", "lcp_physics/physics/contacts.py:DiffContactHandler.__call__", "lcp_physics/physics/engines.py:PdipmEngine.solve_dynamics"]}
{"id": "C28", "title": "A revolute joint's anchor is rigidly attached to its first body", "statement": "After any sequence of steps the anchor offset pos1 of a Joint equals the initial offset rotated by the change of body1's angle, its length is constant, the joint position is body1.pos+pos1, and pos2 = pos - body2.pos.", "quantifier": "all joints, all histories of steps (with rejections and post-stabilization)", "why_tests_cant": "Invariant over histories.", "anchors": ["lcp_physics/physics/constraints.py:Joint.move", "lcp_physics/physics/constraints.py:Joint.update_pos", "lcp_physics/physics/world.py:World.step_dt"]}
{"id": "C29", "title": "Constrained degrees of freedom never move", "statement": "With an engine whose returned velocities satisfy the equality constraints, a body under TotalConstraint keeps its pose exactly forever, and XConstraint/YConstraint/RotConstraint keep the x/y/angle coordinate exactly constant forever, whatever forces, contacts and other joints act, including with post-stabilization.", "quantifier": "all worlds, all histories", "why_tests_cant": "Invariant over unbounded histories.", "anchors": ["lcp_physics/physics/constraints.py:TotalConstraint.J", "lcp_physics/physics/constraints.py:XConstraint.J", "lcp_physics/physics/constraints.py:YConstraint.J", "lcp_physics/physics/constraints.py:RotConstraint.J", "lcp_physics/physics/world.py:World.step_dt"]}
{"id": "C30", "title": "Velocity and position vectors slice consistently", "statement": "World.set_v gives body i exactly components 3i..3i+2 of the vector, World.v is always the concatenation of the bodies' velocities, set_p(cat of bodies' p) is the identity on poses, and bodies never share components.", "quantifier": "any number of bodies, all vectors", "why_tests_cant": "Unbounded sizes.", "anchors": ["lcp_physics/physics/world.py:World.set_v", "lcp_physics/physics/world.py:World.set_p", "lcp_physics/physics/world.py:World.get_v"]}
{"id": "C31", "title": "Post-stabilization does not change velocities", "statement": "With post_stab=True a step ends with exactly the velocities the engine computed before stabilization; only poses are corrected.", "quantifier": "all worlds and engines", "why_tests_cant": "All states.", "anchors": ["lcp_physics/physics/world.py:World.step_dt"]}
{"id": "C32", "title": "The equality Jacobian computes anchor relative velocities", "statement": "Je has one block of rows per joint in order, num_constraints rows in total; multiplying it with any velocity vector gives, for each revolute joint, the relative velocity of the two bodies' material points at the anchor (absolute velocity if there is no second body), plus the relative angular velocity for FixedJoint, and the constrained component for X/Y/Rot/TotalConstraint.", "quantifier": "any number of bodies and joints, all velocities", "why_tests_cant": "Unbounded assembly with slices.", "anchors": ["lcp_physics/physics/world.py:World.Je", "lcp_physics/physics/constraints.py:Joint.J", "lcp_physics/physics/constraints.py:FixedJoint.J"]}
{"id": "C33", "title": "The contact and friction Jacobians compute contact-point relative velocities", "statement": "Row i of Jc times v is the normal component of the relative velocity of the two bodies at contact i; rows 2i and 2i+1 of Jf times v are plus and minus its tangential component.", "quantifier": "any number of bodies and contacts", "why_tests_cant": "Unbounded assembly with slices.", "anchors": ["lcp_physics/physics/world.py:World.Jc", "lcp_physics/physics/world.py:World.Jf"]}
{"id": "C34", "title": "The assembled LCP is the Coulomb contact problem", "statement": "The G, F, h built by solve_dynamics encode exactly: normal velocity + restitution*previous normal velocity >= 0 complementary to normal impulses; tangential velocity + slip variable >= 0 complementary to friction impulses; mu*normal - sum of friction impulses >= 0 complementary to the slip variable; with mu and restitution the means of the two bodies' coefficients.", "quantifier": "any number of contacts, bodies and joints", "why_tests_cant": "Negative-index slicing for every size.", "anchors": ["lcp_physics/physics/engines.py:PdipmEngine.solve_dynamics", "lcp_physics/physics/world.py:World._memoized_mu", "lcp_physics/physics/world.py:World._memoized_E", "lcp_physics/physics/world.py:World.restitutions"]}
{"id": "C35", "title": "Without contacts the engine solves the constrained Newton equations", "statement": "When there are no contacts and the system matrix is invertible, the new velocity v' satisfies M v' = M v + dt*f + Je^T lambda for some lambda and Je v' = 0; it is the unique such velocity; without constraints each body gets v + dt*M^-1 f.", "quantifier": "all worlds without contacts", "why_tests_cant": "All sizes and states.", "anchors": ["lcp_physics/physics/engines.py:PdipmEngine.solve_dynamics"]}
{"id": "C36", "title": "Free flight follows the closed form", "statement": "A body without contacts and constraints under constant force has after n steps velocity v0 + n*dt*a and position p0 + n*dt*v0 + dt^2*a*n(n+1)/2; under Gravity the acceleration equals g downwards independent of mass.", "quantifier": "all n, dt, v0, forces, masses", "why_tests_cant": "Unbounded number of steps.", "anchors": ["lcp_physics/physics/engines.py:PdipmEngine.solve_dynamics", "lcp_physics/physics/bodies.py:Body.move", "lcp_physics/physics/forces.py:Gravity"]}
{"id": "C37", "title": "The cached inverse is never stale", "statement": "In a world whose constraints are all static, for every history of steps, the result of solve_dynamics and post_stabilization with the engine's cached inverse equals the result with a freshly computed inverse; for worlds with non-static joints nothing is ever cached.", "quantifier": "all histories", "why_tests_cant": "Cache coherence over histories.", "anchors": ["lcp_physics/physics/engines.py:PdipmEngine.solve_dynamics", "lcp_physics/physics/engines.py:PdipmEngine.post_stabilization", "lcp_physics/physics/world.py:World.__init__"]}
{"id": "C38", "title": "Contacts are resolved without approaching velocity and with the restitution law", "statement": "If the LCP solver returns an exact solution, after solve_dynamics every contact's normal velocity v'_n satisfies v'_n >= -e*v_n, normal impulses are non-negative, and a contact with positive impulse has v'_n = -e*v_n exactly; equality constraints hold exactly.", "quantifier": "all worlds with contacts", "why_tests_cant": "All states.", "anchors": ["lcp_physics/physics/engines.py:PdipmEngine.solve_dynamics"]}
{"id": "C39", "title": "Friction obeys the Coulomb cone and opposes sliding", "statement": "With an exact LCP solution, at each contact the friction impulse magnitude is at most mu times the normal impulse; if the contact slides the friction has maximal magnitude and opposes the sliding velocity.", "quantifier": "all worlds with contacts, mu>=0", "why_tests_cant": "All states.", "anchors": ["lcp_physics/physics/engines.py:PdipmEngine.solve_dynamics"]}
{"id": "C40", "title": "Linear momentum is conserved", "statement": "With no external force and only joints between two bodies, the engine's new velocities have the same total linear momentum as before, for any contacts, friction and restitution.", "quantifier": "all worlds, all sizes", "why_tests_cant": "All states.", "anchors": ["lcp_physics/physics/engines.py:PdipmEngine.solve_dynamics", "lcp_physics/physics/world.py:World.Jc", "lcp_physics/physics/world.py:World.Jf", "lcp_physics/physics/world.py:World.Je"]}
{"id": "C41", "title": "Angular momentum is conserved", "statement": "Under the same conditions, total angular momentum about the origin is conserved, because contact points (and joint anchors) coincide in the world frame.", "quantifier": "all worlds, all sizes", "why_tests_cant": "All states.", "anchors": ["lcp_physics/physics/engines.py:PdipmEngine.solve_dynamics"]}
{"id": "C42", "title": "Contact resolution never creates kinetic energy", "statement": "With exact LCP solutions, no external forces: if restitution is zero (with any friction mu>=0), or friction impulses are zero and all restitutions are equal to some e in [0,1], the kinetic energy after solve_dynamics is at most the kinetic energy before.", "quantifier": "all worlds, all sizes", "why_tests_cant": "All states.", "anchors": ["lcp_physics/physics/engines.py:PdipmEngine.solve_dynamics"]}
{"id": "C43", "title": "Frictionless post-impact velocity is unique", "statement": "For the LCP without friction any two exact solutions give the same velocities, so the result does not depend on the solver's path.", "quantifier": "all worlds, mass matrix positive definite", "why_tests_cant": "All solutions.", "anchors": ["lcp_physics/physics/engines.py:PdipmEngine.solve_dynamics", "lcp_physics/lcp/lcp.py:LCPFunction.forward"]}
{"id": "C44", "title": "solve_kkt solves the Newton system", "statement": "Given a valid factorisation, solve_kkt returns the (unique) solution of Q dx + G^T dz + A^T dy = -rx, D ds + dz = -rs, G dx + ds - F dz = -rz, A dx = -ry.", "quantifier": "all sizes, matrices with invertible Q and S, all right-hand sides", "why_tests_cant": "All sizes.", "anchors": ["lcp_physics/lcp/solvers/pdipm.py:solve_kkt"]}
{"id": "C45", "title": "The incrementally re-pivoted block LU is always a factorisation of S(d)", "statement": "After pre_factor_kkt and any sequence of factor_kkt calls (some of which may raise), the packed LU data and pivots are a valid P*L*U factorisation of [[A Q^-1 A^T, A Q^-1 G^T],[G Q^-1 A^T, G Q^-1 G^T + F + diag(1/d)]] for the last successful d; a raising call leaves the state unchanged. Requires Q symmetric.", "quantifier": "all sizes, all call histories", "why_tests_cant": "Stateful in-place re-pivoting over unbounded histories.", "anchors": ["lcp_physics/lcp/solvers/pdipm.py:pre_factor_kkt", "lcp_physics/lcp/solvers/pdipm.py:factor_kkt"]}
{"id": "C46", "title": "efficient_btriunpack decodes LAPACK pivots", "statement": "For any pivot sequence the returned P is a permutation matrix and P^T*B is B with the row exchanges applied in LAPACK order; L is unit lower triangular, U upper triangular, and L+U-I is the packed data.", "quantifier": "all sizes and pivot sequences", "why_tests_cant": "Unbounded permutations.", "anchors": ["lcp_physics/lcp/util.py:efficient_btriunpack"]}
{"id": "C47", "title": "The initial interior point is strictly positive", "statement": "Before the first iteration all slacks and multipliers are strictly positive; if any was non-positive, that whole row is >= 1. (The code comment claims all are >= 1 always: that is false.)", "quantifier": "all problems", "why_tests_cant": "All inputs.", "anchors": ["lcp_physics/lcp/solvers/pdipm.py:forward"]}
{"id": "C48", "title": "Step lengths keep slacks and multipliers strictly positive", "statement": "If no direction component is exactly zero, every iteration keeps all slacks and multipliers strictly positive, the step length is in (0,1], and each component shrinks by at most a factor 1000. With a component exactly zero get_step yields -infinity.", "quantifier": "all iterates, directions, sizes, iteration counts", "why_tests_cant": "Invariant over iterations; zero component is measure-zero.", "anchors": ["lcp_physics/lcp/solvers/pdipm.py:get_step", "lcp_physics/lcp/solvers/pdipm.py:forward"]}
{"id": "C49", "title": "Each iteration contracts the linear residuals by exactly (1-alpha)", "statement": "One predictor-corrector iteration maps the dual residual, the inequality residual and the equality residual to exactly (1-alpha) times themselves; hence after a full step they vanish and stay zero, and after k steps they are the product of the (1-alpha_i) times the initial ones.", "quantifier": "all problems, iterates, step lengths, iteration counts", "why_tests_cant": "Exact law for all inputs.", "anchors": ["lcp_physics/lcp/solvers/pdipm.py:forward"]}
{"id": "C50", "title": "The solver returns the best visited iterate", "statement": "The returned (x,s,z,y) is, per batch element, one of the visited iterates (all four components from the same iterate) and its residual is minimal among those visited; the number of iterations is at most max_iter; best residual is non-increasing. It stops exactly at the first iterate where the iterations are used up, not_improved_lim consecutive iterates set no record in any row, every row has been below eps, the gaps exploded, or the next iterate is non-finite or cannot be factorised.", "quantifier": "all problems, batch sizes, iteration limits, factorisation failures", "why_tests_cant": "Loop with four exits.", "anchors": ["lcp_physics/lcp/solvers/pdipm.py:forward"]}
{"id": "C51", "title": "The residual is a certificate", "statement": "If the returned residual is at most eps then the returned iterate satisfies stationarity, feasibility and complementarity up to eps with positive slacks and multipliers; residual 0 would be an exact solution of the mixed LCP.", "quantifier": "all problems", "why_tests_cant": "All inputs.", "anchors": ["lcp_physics/lcp/solvers/pdipm.py:forward"]}
{"id": "C52", "title": "Batch elements are solved independently (false), and the affine step length is batch-independent", "statement": "Solving a batch gives each element the result it would get alone. This fails: get_step takes the maximum over the whole batch, so another element can change the step length from 0.999 to 1; the predictor's step (capped at 1 without the 0.999 factor) is independent.", "quantifier": "all batches", "why_tests_cant": "Cross-element interference.", "anchors": ["lcp_physics/lcp/solvers/pdipm.py:get_step", "lcp_physics/lcp/solvers/pdipm.py:forward"]}
{"id": "C53", "title": "The backward pass is the gradient of the solution map (symmetric F)", "statement": "For every smooth perturbation of (Q,p,G,h,A,b,F) keeping Q symmetric, the directional derivative of the loss through the solution equals the inner product with the returned gradients, when F is symmetric. For the non-symmetric F built for friction this fails.", "quantifier": "all sizes, solutions with positive slacks/multipliers ratio, all perturbations", "why_tests_cant": "Implicit differentiation for every direction.", "anchors": ["lcp_physics/lcp/lcp.py:LCPFunction.backward"]}
{"id": "C54", "title": "masked_scatter_ update equals elementwise selection", "statement": "best.masked_scatter_(I, x[I]) sets exactly the positions where I is true to x and leaves the others.", "quantifier": "all masks and tensors of any size", "why_tests_cant": "Unbounded sizes.", "anchors": ["lcp_physics/lcp/solvers/pdipm.py:forward"]}
{"id": "C55", "title": "Solver failure paths", "statement": "forward returns no solution (None) exactly when the first iteration's factorisation raises, and fails for max_iter=0; otherwise it returns a finite best iterate even if later iterations break down (factorisation raises or non-finite values).", "quantifier": "all problems, failure points", "why_tests_cant": "Every failure point.", "anchors": ["lcp_physics/lcp/solvers/pdipm.py:forward"]}
{"id": "C56", "title": "Impulse forces act only before t=0.1 and forces superpose", "statement": "vert/hor/rot_impulse are zero for t>=0.1 and the unit force before; a body's total force is the sum of its forces, independent of the order of add_force calls, scaled by each multiplier; a body without forces gets zero.", "quantifier": "all times, all force lists", "why_tests_cant": "All times and lists.", "anchors": ["lcp_physics/physics/forces.py:vert_impulse", "lcp_physics/physics/forces.py:ExternalForce", "lcp_physics/physics/bodies.py:Body.apply_forces"]}
{"id": "C57", "title": "Gravity is mass*g of its own body", "statement": "A Gravity object added to a body exerts mass*g downwards at all times. Holds when each object is added to one body; sharing one object between bodies of different masses makes both feel the last body's weight.", "quantifier": "all histories of add_force calls", "why_tests_cant": "Aliasing over histories.", "anchors": ["lcp_physics/physics/forces.py:Gravity.set_body", "lcp_physics/physics/bodies.py:Body.add_force"]}
{"id": "C58", "title": "Recorder numbers frames consecutively and at most one per interval", "statement": "After any sequence of record(t) calls the files written are 0,1,...,frame-1 each exactly once, prev_t = frame*dt, and if times are non-decreasing and non-negative the number of frames is at most floor(t/dt).", "quantifier": "all call sequences", "why_tests_cant": "Histories.", "anchors": ["lcp_physics/physics/utils.py:Recorder.record"]}
{"id": "C59", "title": "Breakout state vector round-trips", "statement": "from_vector(to_vector(paddle, blocks, ball)) returns the same parameters for any number of blocks >= 1; with no blocks it returns the single off-screen placeholder.", "quantifier": "any number of blocks, all values", "why_tests_cant": "Unbounded lists.", "anchors": ["experiments/breakout/run_breakout.py:to_vector", "experiments/breakout/run_breakout.py:from_vector"]}
{"id": "C60", "title": "Breakout block scan", "statement": "If neither the first nor the last pixel of a row has the colour, scanning the row for the colour ends within width+1 passes and returns exactly the maximal runs of that colour, in order, and clears them. A run starting at column 0 hides every run of the row (nothing is returned). A run touching the right edge, without one at column 0, makes the scan loop forever.", "quantifier": "all frames of any size, all colours and rows", "why_tests_cant": "Loop termination for every input.", "anchors": ["experiments/breakout/encoder.py:extract_params", "experiments/breakout/encoder.py:remove_rect"]}
{"id": "C61", "title": "Iterative refinement does not refine", "statement": "solve_kkt_ir is documented to refine the solution of the KKT system; the correction is computed with the wrong sign, so each refinement sweep moves away: the exact residual after a sweep is given by a formula and doubles when the regularisation is dropped.", "quantifier": "all sizes and matrices", "why_tests_cant": "All inputs.", "anchors": ["lcp_physics/lcp/solvers/pdipm.py:solve_kkt_ir", "lcp_physics/lcp/solvers/pdipm.py:factor_solve_kkt_reg", "lcp_physics/lcp/solvers/pdipm.py:kkt_resid_reg"]}
{"id": "C62", "title": "Post-stabilization displacement cancels constraint velocity", "statement": "The displacement computed by post_stabilization (before halving) satisfies Je dp = -Je v without contacts, and with contacts (exact solver) also Jc dp >= -(1-e) Jc v; without constraints and contacts it is zero. It is the smallest such displacement, exists whenever any exists, and is zero if the velocities satisfy the joints and no contact approaches: it never sees position errors or penetration.", "quantifier": "all worlds", "why_tests_cant": "All states.", "anchors": ["lcp_physics/physics/engines.py:PdipmEngine.post_stabilization"]}
{"id": "C63", "title": "LCP utility shapes", "statement": "get_sizes, extract_batch_size, bger and expandParam compute the documented sizes / outer products / expansions for every shape, and raise exactly on unsupported ranks; bdiag, meant for batches, succeeds exactly when the batch or the size is one.", "quantifier": "all shapes", "why_tests_cant": "All shapes.", "anchors": ["lcp_physics/lcp/util.py:get_sizes", "lcp_physics/lcp/util.py:extract_batch_size", "lcp_physics/lcp/util.py:bger", "lcp_physics/lcp/util.py:bdiag", "lcp_physics/lcp/util.py:expandParam"]}
{"id": "C64", "title": "Separating-axis test is complete and reports the penetration depth", "statement": "For two convex polygons the edge-normal separating axis tests report no gap if and only if the solids intersect; disjoint hulls farther apart than eps along an edge normal get no contact; and for overlapping hulls the larger of the two best separations is minus the length of the smallest translation along an edge normal that separates them.", "quantifier": "all convex polygons and poses", "why_tests_cant": "Completeness quantifies over all separating directions and all polygons.", "anchors": ["lcp_physics/physics/contacts.py:DiffContactHandler.test_separations", "lcp_physics/physics/contacts.py:DiffContactHandler.__call__"]}
{"id": "C65", "title": "Circle-hull contact reports the exact penetration depth; NaN for special interior centres", "statement": "Whenever the circle-hull branch reports a contact with a finite normal, its penetration is the length of the shortest translation that takes the circle off the hull (centre outside: GJK branch, centre inside: SAT branch). For centres inside the hull lying on a segment between two vertices the normal is NaN.", "quantifier": "all convex hulls, all circles", "why_tests_cant": "All geometries, both branches.", "anchors": ["lcp_physics/physics/contacts.py:DiffContactHandler.__call__"]}
{"id": "C66", "title": "Overlapping rectangles always get a contact at the exact depth", "statement": "Two Rect bodies in any pose reached by any history that overlap always produce at least one contact, and the deepest reported penetration equals the separating-axis penetration depth.", "quantifier": "all rects, all histories of moves, all cached edges", "why_tests_cant": "All geometries, histories and hidden caches.", "anchors": ["lcp_physics/physics/contacts.py:DiffContactHandler.__call__", "lcp_physics/physics/contacts.py:DiffContactHandler.clip_segment_to_line", "lcp_physics/physics/contacts.py:DiffContactHandler.get_incident_edge"]}
{"id": "C67", "title": "Overlapping general hulls can get no contact", "statement": "For general hulls the clip planes are centred on the centroid, not on the edge midpoint, so two hulls that overlap may be reported as having no contact at all: a concrete pair of hulls is exhibited.", "quantifier": "existential (negation of contact completeness)", "why_tests_cant": "Needs a proof that the hulls overlap and that the result is empty whatever the cached edges.", "anchors": ["lcp_physics/physics/contacts.py:DiffContactHandler.__call__", "lcp_physics/physics/contacts.py:DiffContactHandler.clip_segment_to_line"]}
{"id": "C68", "title": "Breakout action choice", "statement": "get_action returns right (3) above the threshold, left (2) below minus the threshold and no-op (0) in between, for every positive threshold; with threshold zero a zero displacement moves left.", "quantifier": "all displacements and thresholds", "why_tests_cant": "All reals.", "anchors": ["experiments/breakout/run_breakout.py:get_action"]}
{"id": "C69", "title": "Breakout ball search", "statement": "The ball search returns nothing exactly if the colour does not occur; otherwise it returns the first pixel of the colour in reading order together with the ends of the maximal horizontal and vertical runs starting there, and the radius lies in [0,1], being 0 exactly if such a run reaches the border of the frame.", "quantifier": "all frames and colours", "why_tests_cant": "All frames.", "anchors": ["experiments/breakout/encoder.py:extract_params"]}
{"id": "C70", "title": "The library's solver certifies the contact law up to its residual", "statement": "Whenever solve_dynamics with the library's own LCP solver returns, the returned velocities obey the contact law (momentum balance, constraints, restitution, Coulomb friction, all signs and complementarity conditions) with an error of at most the best residual the solver computed; with residual zero this is the exact law. The same for post_stabilization.", "quantifier": "all worlds, forces, friction coefficients, batch element of size one, eps, iteration limits", "why_tests_cant": "Every state and every number of iterations of a floating point solver.", "anchors": ["lcp_physics/physics/engines.py:PdipmEngine.solve_dynamics", "lcp_physics/physics/engines.py:PdipmEngine.post_stabilization", "lcp_physics/lcp/lcp.py:LCPFunction.forward", "lcp_physics/lcp/solvers/pdipm.py:forward"]}
{"id": "C71", "title": "Frictionless simulations with the library's solver return", "statement": "For bodies of positive mass and inertia joined by a tree of constraints (each constraint removes coordinates no earlier one involves), without friction: solve_dynamics and post_stabilization of the library never raise in any configuration, and run_world of a non-strict world returns at a time in [T, T+dt) unless the contact search raises; for circles the search raises only for exactly concentric circles; a strict step of circles returns if no contact is as deep as tol.", "quantifier": "all worlds, configurations, forces, end times", "why_tests_cant": "Whole runs, all reachable configurations.", "anchors": ["lcp_physics/physics/engines.py:PdipmEngine.solve_dynamics", "lcp_physics/physics/engines.py:PdipmEngine.post_stabilization", "lcp_physics/physics/world.py:run_world", "lcp_physics/physics/world.py:World.step_dt", "lcp_physics/lcp/lcp.py:LCPFunction.forward"]}
{"id": "C72", "title": "Physics of approximate solutions", "statement": "Velocities obeying the contact law up to an error eps conserve momentum up to eps per body, have approach speeds and friction impulses within eps of the exact bounds, gain at most eps times a bound on velocities and impulses of energy in inelastic contact, and without friction are near the exact solution in the mass norm; along every run with residuals at most eps, coordinates held by axis constraints drift at most eps per unit of simulated time.", "quantifier": "all solutions, all runs", "why_tests_cant": "All runs.", "anchors": ["lcp_physics/physics/engines.py:PdipmEngine.solve_dynamics", "lcp_physics/physics/world.py:World.step_dt"]}
{"id": "C73", "title": "A step raises only what its parts raise", "statement": "If step_dt raises, then the exception was raised by solve_dynamics, by a contact search for the same bodies in some pose, or (with post-stabilization) by post_stabilization of the moved world.", "quantifier": "all worlds, environments, step sizes", "why_tests_cant": "All failure paths.", "anchors": ["lcp_physics/physics/world.py:World.step_dt"]}
{"id": "C74", "title": "The contact problem is solvable exactly when it is feasible", "statement": "For bodies of positive mass and inertia and no friction, the contact problem posed by solve_dynamics has a solution exactly if some velocity satisfies the joints and every restitution bound; with one common restitution coefficient (or none) this always holds and the resulting velocity is unique, so an exact engine returns. With different restitution coefficients it can fail: a ball touching two fixed walls, moving towards the wall with the larger coefficient, admits no velocity at all, every candidate violates a bound by at least a quarter of speed times the difference, and every exact solver raises. With friction a solution still exists whenever some velocity satisfies the joints and exceeds each restitution bound by the friction coefficient times its slip: always for inelastic contacts, always if the contacts can be separated within their friction cones, hence always for jointless circles.", "quantifier": "all worlds, joints, velocities, forces; existential for the infeasible world", "why_tests_cant": "Existence of solutions of a linear complementarity problem for every state.", "anchors": ["lcp_physics/physics/engines.py:PdipmEngine.solve_dynamics", "lcp_physics/physics/world.py:World.restitutions", "lcp_physics/physics/world.py:World.Je", "lcp_physics/physics/world.py:World.Jc"]}
{"id": "C75", "title": "numerical_backward and the gradient", "statement": "numerical_backward leaves its inputs as they were. Its result is half of the gradient, not the gradient: the saved entry is a view of the cell being perturbed, so the second evaluation happens at the unperturbed point, and each row is half a backward difference; exactly half the gradient for linear solvers, and in the limit of small steps for every differentiable one. With a copied entry the quotient would converge to the gradient.", "quantifier": "all solvers as functions, inputs, step widths", "why_tests_cant": "Limits and all functions; an agreement test against the analytic gradient would need a tolerance above 50 percent to pass.", "anchors": ["lcp_physics/lcp/lcp.py:LCPFunction.numerical_backward"]}
{"id": "C78", "title": "Impacts are local", "statement": "A group of bodies whose joints and contacts connect it only with bodies of the group and with bodies that rest before and after the impact is not influenced by the rest of the world: without friction its new velocities are the same in any two scenes that agree on the group; its kinetic energy changes by exactly the share of its own restitution coefficient (conserved for coefficient one); a body without joints and contacts gets exactly its own force impulse.", "quantifier": "all scenes, groups, velocities, impulses", "why_tests_cant": "All surroundings of the group.", "anchors": ["lcp_physics/physics/engines.py:PdipmEngine.solve_dynamics", "lcp_physics/physics/world.py:World.Je", "lcp_physics/physics/world.py:World.Jc", "lcp_physics/physics/world.py:World.M"]}
{"id": "C76", "title": "The simulated Breakout world", "statement": "make_world builds the Breakout world exactly if paddle and blocks have positive area and the blocks lie in the colour table; whatever the player does, walls, roof, stoppers and blocks never move; in a step in which the ball does not touch the paddle, the ball keeps its speed and spin; off a single resting body it reflects like off a mirror; an untouched paddle moves with the commanded velocity. A central hit on a resting paddle stops the ball's normal velocity and gives it to the paddle.", "quantifier": "all frames' parameters, action sequences, numbers of steps", "why_tests_cant": "Whole games with an adversarial player.", "anchors": ["experiments/breakout/encoder.py:make_world", "experiments/breakout/encoder.py:run_breakout", "experiments/breakout/encoder.py:step_breakout"]}
{"id": "C79", "title": "Contacts never turn a circle without friction", "statement": "The contact points the search reports on a circle lie on the line through its centre along the normal; hence without friction no contact changes the spin of a circle, and a circle without joints and torques keeps its angular velocity along every run.", "quantifier": "all worlds, runs, circles", "why_tests_cant": "All runs and contact configurations.", "anchors": ["lcp_physics/physics/contacts.py:DiffContactHandler.__call__", "lcp_physics/physics/engines.py:PdipmEngine.solve_dynamics", "lcp_physics/physics/world.py:World.Jc"]}
{"id": "C80", "title": "Single contact: textbook impulse", "statement": "For two jointless bodies touching only each other, without friction, the solver's impulse is the textbook formula max(0, -(free approach + e * previous approach) / (sum of inverse effective masses)) and the velocities change by exactly that impulse; against a resting body likewise; central bounces reflect the normal velocity with factor e and keep the tangential velocity and spin; equal masses with e = 1 exchange their normal velocities.", "quantifier": "all masses, inertias, arms, normals, velocities, forces, rest of the world", "why_tests_cant": "Closed form for every parameter.", "anchors": ["lcp_physics/physics/engines.py:PdipmEngine.solve_dynamics", "lcp_physics/physics/world.py:World.restitutions", "lcp_physics/physics/world.py:World.Jc"]}
{"id": "C77", "title": "Breakout paddle search and the path from frame to world", "statement": "The paddle search raises exactly if the first maximum of row 189 lies in the last three columns; otherwise its box has the paddle's height and a width of 1 to 16 inside the screen. If the first run of the paddle's colour has at least four columns it is found exactly (cut at 16), also with the ball standing left of it; but a ball exactly one column left of the paddle is taken for the paddle. Whatever extract_params returns, make_world can build; a ball of radius zero (at the border) makes the first contact-free step raise.", "quantifier": "all frames of width 160", "why_tests_cant": "All pixel patterns.", "anchors": ["experiments/breakout/encoder.py:extract_params", "experiments/breakout/encoder.py:make_world"]}
{"id": "C81", "title": "The ODE contact handler and the differentiable one agree on circles", "statement": "Given ode.collide's documented result for spheres, on circles whose contact distance is the world's and which are not concentric, the differentiable handler reports exactly those contacts of the ODE handler with penetration at least -eps, with the same normal, arms, penetration, bodies and order; the ODE handler already reports at distance 2 eps. For concentric circles the ODE handler picks the x axis while the differentiable one divides zero by zero. In general the ODE handler keeps the contacts with z <= 0 if no depth is negative; a negative depth drops all later contacts.", "quantifier": "all circle worlds, pair lists, exclusion sets", "why_tests_cant": "Agreement for all radii and positions.", "anchors": ["lcp_physics/physics/contacts.py:OdeContactHandler.__call__", "lcp_physics/physics/contacts.py:DiffContactHandler.__call__"]}
{"id": "C82", "title": "The frictionless motion does not depend on solver, contact order or mass unit", "statement": "Without friction the whole simulated motion (clock, poses, velocities, joints, random state) is a function of the scene: any two exact LCP solvers with any iteration limits give the same run, in variable and fixed time steps, with and without post-stabilization. Multiplying all masses, inertias and forces by s > 0 (gravity does so by itself) leaves the motion unchanged. For circles the order in which the broad phase presents pairs, duplicates included, and which body comes first, do not matter.", "quantifier": "all worlds with positive masses, all joints, contacts, solvers, horizons", "why_tests_cant": "Equality of whole runs over all scenes and solvers.", "anchors": ["lcp_physics/physics/engines.py:PdipmEngine.solve_dynamics", "lcp_physics/physics/engines.py:PdipmEngine.post_stabilization", "lcp_physics/physics/world.py:World.step_dt", "lcp_physics/physics/contacts.py:DiffContactHandler.__call__"]}
{"id": "C83", "title": "Bodies are uniform laminae", "statement": "At every moment of its life the position of a Circle, a Rect or a convex Hull is the centre of mass of the region it covers, and its ang_inertia is the integral of the squared distance from there times the uniform mass density (Lebesgue integrals over the region). The Hull constructor also accepts polygons that are not convex; for those the centroid is right but the inertia can be too small (an L), because triangle areas are summed without sign.", "quantifier": "all radii, dimensions, convex polygons, masses, pose histories", "why_tests_cant": "Equality with an area integral for every shape.", "anchors": ["lcp_physics/physics/bodies.py:Hull._get_centroid", "lcp_physics/physics/bodies.py:Hull._get_ang_inertia", "lcp_physics/physics/bodies.py:Circle._get_ang_inertia", "lcp_physics/physics/bodies.py:Rect._get_ang_inertia"]}
{"id": "C84", "title": "Contacts and whole runs do not depend on where the scene is", "statement": "Seen from a turned, shifted, uniformly moving frame, bodies and their broad-phase geometries cover the moved regions, and the contact handler finds the same contacts (same depths and order, normals and lever arms turned, same errors and random draws), for all shapes including hulls. Translating a whole world (bodies and the anchor points of its constraints) translates every run and every step: same clock, velocities, contacts, step sizes, and the same outcome if it hangs or raises; with any solver, friction, joints and post-stabilization. Bounding-box overlap is unchanged in frames without turn.", "quantifier": "all frames, worlds, shapes, solvers, horizons", "why_tests_cant": "Symmetry over a continuous group for all scenes.", "anchors": ["lcp_physics/physics/contacts.py:DiffContactHandler.__call__", "lcp_physics/physics/world.py:World.step_dt", "lcp_physics/physics/world.py:World.__init__", "lcp_physics/physics/engines.py:PdipmEngine.solve_dynamics", "lcp_physics/physics/constraints.py:Joint"]}
{"id": "C85", "title": "Galilean invariance", "statement": "The law of impact, with restitution and friction, and the law of post-stabilization hold in every inertial frame with the same impulses. A frictionless scene of free bodies of any shapes, simulated as seen from a turned, shifted and uniformly moving frame (forces turned alike), keeps showing the same scene: same clock and step halvings, bodies and contacts as seen from the frame at that time. When one run returns, the other, with a solver that answers solvable problems, returns too.", "quantifier": "all inertial frames, all scenes of free bodies, all exact solvers", "why_tests_cant": "Symmetry over a continuous group for whole runs.", "anchors": ["lcp_physics/physics/engines.py:PdipmEngine.solve_dynamics", "lcp_physics/physics/engines.py:PdipmEngine.post_stabilization", "lcp_physics/physics/world.py:World.step_dt", "lcp_physics/physics/contacts.py:DiffContactHandler.__call__"]}
{"id": "C86", "title": "Strict stepping keeps bodies out of each other", "statement": "When the contact search reports no penetration above tol, every pair of bodies that may touch (circle and circle, circle and convex hull, rectangle and rectangle, none excluded) overlaps by at most tol: one body shifted by at most tol has an interior disjoint from the other's. Hence a strict world without post-stabilization, started so, keeps this at every moment of a run, under any forces, any solver, and any velocities a player writes in between.", "quantifier": "all scenes of discs, convex hulls and rectangles, all runs", "why_tests_cant": "A geometric guarantee about true point sets over all poses and horizons, not about the reported numbers.", "anchors": ["lcp_physics/physics/contacts.py:DiffContactHandler.__call__", "lcp_physics/physics/contacts.py:DiffContactHandler.gjk", "lcp_physics/physics/contacts.py:test_separations", "lcp_physics/physics/world.py:World.step_dt", "lcp_physics/physics/world.py:World.__init__"]}
{"id": "C87", "title": "The ball stays in the Breakout court", "statement": "In the world built by make_world the scenery never moves, nothing that may touch overlaps by more than 1e-6, and a ball started inside the court, moving less than 8 per step and not yet down at the paddle's height, is never inside or behind the walls or the roof (up to 1e-6). A ball thrown with speed below 8 satisfies this until the paddle touches it.", "quantifier": "all games: any paddle, blocks, ball, actions, horizons", "why_tests_cant": "Tunnelling through walls over unbounded games cannot be excluded by playing some.", "anchors": ["experiments/breakout/encoder.py:make_world", "experiments/breakout/encoder.py:step_breakout", "lcp_physics/physics/world.py:World.step_dt"]}
{"id": "C88", "title": "A drawn screen is read as drawn", "statement": "From every frame that shows a picture of the game (paddle, blocks in six coloured rows, ball, on any darker background) with the ball clear of the blocks, of the paddle's rows and of line 57, extract_params reads exactly this picture, blocks from top to bottom and left to right; the world built from it has its bodies at the shown pixels, and a lost ball is more than 20000 away from everything. A ball on line 57 is read as an additional block (ball and top row have the same red) and, within six rows, reported lost.", "quantifier": "all frames, paddle positions, block sets, ball boxes", "why_tests_cant": "All pictures on all backgrounds; the failing case needs the ball on one particular line.", "anchors": ["experiments/breakout/encoder.py:extract_params", "experiments/breakout/encoder.py:remove_rect", "experiments/breakout/encoder.py:get_pos_dims", "experiments/breakout/encoder.py:make_world"]}
{"id": "C89", "title": "simulate_breakout returns the state of the world it stepped", "statement": "simulate_breakout makes exactly the step of step_breakout, returns the packed positions and sizes of paddle, blocks and ball, and leaves this world except that the paddle's angle is set to zero (its vertices stay turned). Blocks and all sizes never change, the clock advances by exactly one, and with no blocks the call raises. make_world of a state vector gives a world whose state vector is that vector.", "quantifier": "all worlds of the game, actions, speeds, contact histories", "why_tests_cant": "The written-back angle differs from the vertices only after the paddle has been turned, which no short game shows.", "anchors": ["experiments/breakout/run_breakout.py:simulate_breakout", "experiments/breakout/run_breakout.py:to_vector", "experiments/breakout/run_breakout.py:from_vector", "experiments/breakout/encoder.py:step_breakout", "experiments/breakout/encoder.py:make_world"]}
{"id": "C90", "title": "What the controller's model predicts", "statement": "As long as ball and paddle touch nothing, the predicted state is linear in the actions: the paddle moves by their sum times the paddle speed, the ball by the number of steps times its initial velocity. Blocks and sizes never change in a prediction. After a bounce the prediction is wrong: each predicted step starts again with the ball's initial velocity, while the world goes on with the reflected one.", "quantifier": "all states, action lists, horizons; every bounce", "why_tests_cant": "Needs all action sequences; the forgotten bounce shows only when prediction and world are compared over two steps.", "anchors": ["experiments/breakout/run_breakout.py:mpc.BreakoutDynamics.forward", "experiments/breakout/run_breakout.py:simulate_breakout", "experiments/breakout/encoder.py:make_world"]}
{"id": "C91", "title": "The controller's cost is the tracking cost", "statement": "The quadratic form built by mpc equals, on every state and action, the squared horizontal distance between ball and paddle while tracking is on, plus ten times the squared ball height if vert_cost is set, plus lambda times the squared actions. Tracking is on until the frame after the ball reaches the paddle's height when it falls, and never while it rises, except for a lost ball with centering.", "quantifier": "all numbers of blocks, states, actions, times, settings", "why_tests_cant": "Index arithmetic over state vectors of any length.", "anchors": ["experiments/breakout/run_breakout.py:mpc"]}
{"id": "C92", "title": "The paddle speed is identifiable from a contact-free game", "statement": "In a game in which ball and paddle touch nothing, the simulated states the learner compares are those of a paddle moving by action times speed. The loss against a game with other speed is a positive multiple of the squared error of the speed, the factor depending on the actions only; it is zero only for the true speed, unless all actions are zero.", "quantifier": "all action lists, speeds, games", "why_tests_cant": "Identifiability is a statement about all speeds and action sequences.", "anchors": ["experiments/breakout/learn_params.py:infer_params", "experiments/breakout/run_breakout.py:simulate_breakout"]}
{"id": "C93", "title": "The engine never raises in the Breakout game", "statement": "In every world reached from make_world by any play, whatever the player writes and the LCP solver returns, masses are positive, constraints independent and friction zero; hence with the library's solver solve_dynamics returns for any contacts, and a step can raise only if the contact search does. With the library's contact search that happens only if the centre of the ball, in a pose the step tries, lies exactly on the segment between two corners of another body; a game in which this happens is exhibited.", "quantifier": "all games, actions, contact histories, horizons", "why_tests_cant": "A crash in a rare contact configuration.", "anchors": ["lcp_physics/physics/engines.py:PdipmEngine.solve_dynamics", "experiments/breakout/encoder.py:make_world", "experiments/breakout/encoder.py:step_breakout", "lcp_physics/physics/world.py:World.step_dt"]}
{"id": "C94", "title": "The contact search returns on all circles and rectangles", "statement": "For circles and rectangles made by the constructors, of size up to 1e9, after any moves, with any broad phase, exclusion sets, random starts and cached axes, the contact search returns: GJK ends within a bounded number of rounds, every support query and separation test succeeds, and clipping never divides by zero. A NaN normal arises only for concentric circles or a circle centred on the segment between two vertices of the other body. A step of a frictionless world with independent constraints raises only in such a pose.", "quantifier": "all scenes of circles and rectangles, poses, histories, random choices", "why_tests_cant": "Failures of the search (UnboundLocalError, non-finite points, endless GJK) occur on exact coincidences that random poses never hit.", "anchors": ["lcp_physics/physics/contacts.py:DiffContactHandler.__call__", "lcp_physics/physics/contacts.py:DiffContactHandler.gjk", "lcp_physics/physics/contacts.py:DiffContactHandler.test_separations", "lcp_physics/physics/contacts.py:DiffContactHandler.clip_segment_to_line", "lcp_physics/physics/contacts.py:DiffContactHandler.get_incident_edge"]}
{"id": "C95", "title": "Before the impact the mass-inference experiment is blind to the mass", "statement": "In the chain experiment, make_world returns for every number of links and every positive mass; for the first 44 steps every step returns, the links hang at rest exactly where they were put, the projectile follows a closed formula and no contact is found. So positions_run_world stopped before the impact records the same rows for all masses, solvers and random choices, the loss between any two masses is zero, and its gradient is zero against any ground truth.", "quantifier": "all masses > 0, numbers of links >= 1, LCP solvers, broad phases, random starts, run times up to 44 steps", "why_tests_cant": "A test samples a few masses; the claim that no mass whatsoever can be told apart, and that joints and stabilisation introduce no drift at all, is about all of them.", "anchors": ["experiments/inference.py:make_world", "experiments/inference.py:positions_run_world", "experiments/inference.py:main", "lcp_physics/physics/world.py:World.step_dt", "lcp_physics/physics/engines.py:PdipmEngine.solve_dynamics", "lcp_physics/physics/engines.py:PdipmEngine.post_stabilization"]}
{"id": "C96", "title": "An isolated scene obeys the conservation laws along whole runs", "statement": "If no constraint refers to the world and the forces add up to nothing, total linear momentum is the same in every world a run reaches and the centre of mass moves uniformly, with joints between bodies, friction, any restitution, and post-stabilization on or off. Free bodies without forces also keep their angular momentum (without post-stabilization). Without forces, kinetic energy never increases if restitution is zero (any constraints and friction) or if free frictionless bodies share one restitution in [0,1]; for restitution one it is kept exactly.", "quantifier": "all scenes, contact searches, exact solvers, step sizes, histories of any length", "why_tests_cant": "A drift of momentum over long runs is invisible in short tests with tolerances; the claim covers every collision history.", "anchors": ["lcp_physics/physics/world.py:World.step_dt", "lcp_physics/physics/engines.py:PdipmEngine.solve_dynamics", "lcp_physics/physics/engines.py:PdipmEngine.post_stabilization", "lcp_physics/physics/bodies.py:Body.move"]}
{"id": "C97", "title": "Outcome of one frictional contact of a round body, in closed form", "statement": "A body that is held by no joint and touched only by one resting body, in one contact in which it is pressed along the line through its centre, has exactly one outcome of a step: normal impulse max(0, -m(lift + e*previous lift)), friction impulse the one that stops the slip cut off to the cone mu*normal impulse, velocity and spin changed accordingly. The slip is reduced by at most (1/m + rho^2/I)*mu*P, never reversed; momentum along the surface and spin are traded at a fixed rate.", "quantifier": "all scenes (other bodies and joints elsewhere), velocities, forces, masses, restitution and friction coefficients, contact order", "why_tests_cant": "Tests sample outcomes; the closed form determines the outcome of every such contact, including the switch between sliding and sticking.", "anchors": ["lcp_physics/physics/engines.py:PdipmEngine.solve_dynamics", "lcp_physics/physics/world.py:World.Jf", "lcp_physics/physics/world.py:World.mu", "lcp_physics/physics/world.py:World.E"]}
{"id": "C98", "title": "A ball sliding on a level floor ends up rolling, with two thirds of its speed", "statement": "World.step_dt on a ball that lies on a fixed box, with weight and friction, using the library's contact search: the ball neither leaves nor enters the floor, steps are never shortened, the slip speed falls by 3*mu*g*dt per step to zero and never reverses, a third of the lost slip comes from the speed and two thirds go to the spin, energy lost is m/6 of the difference of squared slips. When the slip is used up the speed is (2u + r*omega)/3 for ever after (two thirds of u for a ball that did not spin), whatever mu, g, dt are. Without friction nothing changes. Such worlds are what the constructor returns, and runs of every length for which the floor is long enough exist.", "quantifier": "all radii, masses, speeds, spins, floors, frictions, restitutions, gravities, step lengths, numbers of steps, broad-phase orders, random streams", "why_tests_cant": "demos/fric.py-like scenes only show a picture; the final speed being independent of friction and step size is a law over all parameters and run lengths.", "anchors": ["lcp_physics/physics/world.py:World.step_dt", "lcp_physics/physics/world.py:World.__init__", "lcp_physics/physics/contacts.py:DiffContactHandler.__call__", "lcp_physics/physics/engines.py:PdipmEngine.solve_dynamics", "lcp_physics/physics/bodies.py:Circle._get_ang_inertia"]}
{"id": "C99", "title": "Statics: a scene rests if and only if forces can balance it; a stack of bricks stands exactly when it should", "statement": "A body system at rest stays at rest in a step if joint forces and pushing contact forces can balance the applied forces (equivalently: no motion the joints and contacts allow gains work), and a step that ends at rest exists if and only if forces within the friction cones balance. Such a scene keeps its poses for ever. For a tower of n level bricks on a fixed floor, with the library's contact search: every body keeps its exact pose and zero velocity for ever if at each interface the centre of mass of the bricks above lies over the area of contact, and starts to move in the first step otherwise, whatever the friction. So stacks of equal bricks overhanging their base by any distance stand for ever.", "quantifier": "all scenes, forces, coefficients, step lengths, histories; all towers of any number of bricks of any sizes, masses, offsets; broad phases, cached edges", "why_tests_cant": "A stack that creeps, or a false tip-over at the edge of stability, shows only in long runs or at exact limits; the criterion is an equivalence over all towers.", "anchors": ["lcp_physics/physics/world.py:World.step_dt", "lcp_physics/physics/engines.py:PdipmEngine.solve_dynamics", "lcp_physics/physics/engines.py:PdipmEngine.post_stabilization", "lcp_physics/physics/contacts.py:DiffContactHandler.__call__", "lcp_physics/physics/contacts.py:DiffContactHandler.clip_segment_to_line", "lcp_physics/physics/contacts.py:DiffContactHandler.get_incident_edge", "lcp_physics/physics/bodies.py:Rect.__init__"]}
{"id": "C100", "title": "A box on an inclined plane obeys Coulomb's law: it stays, slides, brakes or tips exactly when it should", "statement": "World.step_dt on a box lying flat on a fixed tilted box, using the library's contact search. At rest it stays at rest in a step if and only if the slope is at most mu and the vertical through its centre meets its base; then it stays for ever, whatever the step sizes. A box that is broad enough (mu*h <= w) and moves down never turns, leaves or enters the plane; its speed after k steps is max(0, u + k*dt*g*(sin - mu*cos)) and its place the corresponding sum: constant acceleration, or braking to a stop that lasts. For any body lying flat on a resting one, the outcome of a step is determined, and it starts to turn exactly if friction cut off to its cone has a larger moment than the load can balance. Such worlds are what the constructor returns, and runs of every length for which the plane is long enough exist. In slide_demo a box at rest on the plane does not slide.", "quantifier": "all slopes below the vertical, sizes, masses, frictions, restitutions, speeds, gravities, step lengths, numbers of steps, broad phases, cached edges", "why_tests_cant": "Creep on a slope below the friction angle, or an acceleration off by a discretisation term, shows only in long runs; the thresholds are equivalences over all parameters.", "anchors": ["lcp_physics/physics/world.py:World.step_dt", "lcp_physics/physics/world.py:World.__init__", "lcp_physics/physics/contacts.py:DiffContactHandler.__call__", "lcp_physics/physics/contacts.py:DiffContactHandler.clip_segment_to_line", "lcp_physics/physics/engines.py:PdipmEngine.solve_dynamics", "lcp_physics/physics/bodies.py:Rect.__init__", "demos/demo.py:slide_demo"]}
{"id": "C101", "title": "Gradients through frictional contacts are multiplied by the transposed Jacobian", "statement": "LCPFunction.backward multiplies the gradient of the loss by the Jacobian of the solution map, not by its transpose. In the engine's problem with friction the two differ: for a body pressed against a held one, the gradient returned for its slip with respect to the load is exactly zero, although the slip changes with the load whenever the body slides and there is friction (closed form of the rate; in the exact law 1/m + rho^2/I times mu per unit of load); and the gradient returned for its normal velocity has a non-zero tangential part, although no tangential push changes the normal velocity. The statement that the gradients are right is therefore false with friction. The factorisations of the backward pass do not raise in such worlds, whatever the coefficients of friction.", "quantifier": "all worlds in which contacts press bodies without joints, each touched once, against bodies held by joints; all strictly interior solutions; all losses; any sound LAPACK factorisation", "why_tests_cant": "a numerical gradient check at one configuration compares numbers with a tolerance; in frictionless scenes and for bodies that do not slide the gradients agree", "anchors": ["lcp_physics/lcp/lcp.py:LCPFunction.backward", "lcp_physics/physics/engines.py:PdipmEngine.solve_dynamics", "lcp_physics/lcp/solvers/pdipm.py:pre_factor_kkt", "lcp_physics/lcp/solvers/pdipm.py:factor_kkt", "lcp_physics/lcp/solvers/pdipm.py:solve_kkt"]}
{"id": "C102", "title": "Strict stepping ends when contacts are real overlaps; for general hulls contacts can be phantoms and a strict run stands still for ever", "statement": "For circles and boxes (and hulls with a circle): every contact the search reports with positive depth is a real overlap of at least that depth, and all contacts are at most tol deep if and only if no two bodies that may touch reach into each other by more than tol. Hence with strict_no_penetration the loop of World.step_dt ends: if all contacts in force are less than tol deep there is a number of halvings after which every larger bound gives a result, and with overlaps at most t and speeds at most V the step advances by the full dt or by more than (tol-t)/(4V), with an explicit number of halvings. For general pairs of hulls this is false: disjoint triangles are reported as 2/3 deep when their gap is below eps; a strict constructor refuses them, and a strict world in which they glide past one another is accepted, every single step returns, but the clock never reaches 1/10, so run_world never ends.", "quantifier": "all worlds of circles and boxes (Measured pairs), contact searches of the library, broad phases, step lengths, velocities, tolerances; the counterexample for all gaps g <= eps, all exact solvers and step bounds", "why_tests_cant": "a hang shows only when a run is waited for without end; the depth claim and the number of halvings range over all poses; the phantom needs a centroid far from the middle of the reference edge, which no test scene has", "anchors": ["lcp_physics/physics/world.py:World.step_dt", "lcp_physics/physics/world.py:World.__init__", "lcp_physics/physics/world.py:run_world", "lcp_physics/physics/contacts.py:DiffContactHandler.__call__", "lcp_physics/physics/contacts.py:DiffContactHandler.clip_segment_to_line", "lcp_physics/physics/contacts.py:DiffContactHandler.get_incident_edge"]}
{"id": "C103", "title": "A ball bouncing off a floor: the positions are right, their derivatives with respect to the start are not", "statement": "A ball comes down on a held level floor without gravity, with restitution e, in the default strict mode and with the library's contact search. At every step its height differs from that of an ideal bouncing ball by at most (1+e)*max(eps,tol), whatever the step length, and after finitely many steps it has bounced with exactly e times its speed. But the moment of the bounce is one of the times dt/2^j and does not depend on the start: off a countable set of starting heights the height after n steps has derivative exactly +1 with respect to the starting height, before and after the bounce, for every dt, eps, tol and e, where the exact derivative after the bounce is -e. With respect to the starting speed the derivative is off by (1+e)*g/u up to (1+e)*max(eps,tol)/u. So the gradient of a squared distance from a target height has the wrong sign after the bounce unless the ball is already within the accuracy of the target. Refining dt, eps or tol does not help.", "quantifier": "all radii, masses, floors, frictions, restitutions, starting heights (off a countable set for the gradient), speeds with u*dt < r, step lengths, tolerances, numbers of steps, broad phases, random streams, exact solvers", "why_tests_cant": "the positions look right in every run, and finite differences of the program agree with its own gradient; the error shows only against the exact motion and for every refinement", "anchors": ["lcp_physics/physics/world.py:World.step_dt", "lcp_physics/physics/world.py:World.__init__", "lcp_physics/physics/contacts.py:DiffContactHandler.__call__", "lcp_physics/physics/engines.py:PdipmEngine.solve_dynamics", "demos/grad_demo.py:grad_demo"]}
{"id": "C104", "title": "A step that is cut short applies the forces of the whole step", "statement": "World.step_dt asks the engine for the velocities after dt and then moves the bodies for dt/2^k only. A body that no joint holds and nothing touches gets v' = v + dt*F/m and p' = p + (dt/2^k)*v' while the clock advances by dt/2^k. Its energy changes by m*g*(v'*(dt-d) - g*dt^2/2), where d is the length of the step taken. Over n steps its weight acts for the time n*dt, and this is the time that has passed exactly if no step was cut short. step(fixed_dt=True) ends at t+dt, but the weight has acted for the sum of the times left at the sub-steps, which is dt exactly if there was one sub-step. The collision that shortens the step may be between other bodies. A ball dropped from rest at 21/4 on a floor with restitution 9/10, with the gravity of the demos and the default constants, meets the floor after 49/160 with the speed of a fall of 11/30 and rises to more than 6.", "quantifier": "all worlds, bodies left alone, forces, step lengths, numbers of halvings and steps, contact searches, exact solvers; the drop for all masses, frictions, floors, radii from 2, broad phases", "why_tests_cant": "a single step looks right and a test compares with the recorded run; the excess appears only when time and speed are compared along runs with contacts, and grows with every shortened step", "anchors": ["lcp_physics/physics/world.py:World.step_dt", "lcp_physics/physics/world.py:World.step", "lcp_physics/physics/engines.py:PdipmEngine.solve_dynamics", "lcp_physics/physics/bodies.py:Body.move", "lcp_physics/physics/bodies.py:Body.apply_forces"]}
{"id": "C105", "title": "A body turning on a frictionless pivot slows down, stops, and comes off the pivot", "statement": "A body pinned to the world by a Joint (constraints.py) that touches nothing leaves every step with the velocity of a rotation about the pivot as seen at the start of the step; its angular velocity is the one that conserves the angular momentum about the pivot plus the moment of the force. The body is then moved along this velocity, so the direction to the pivot turns and the next projection loses part of it: without forces w(n+1) = w(n)*(1 - k*(1 - cos(w(n)*d(n)))), where d(n) is the length of the step before and k = m*a^2/(I + m*a^2) for a pivot at distance a from the centre. The rotation never gets faster, it keeps its speed only after whole turns, and with steps of full length and less than one turn per step it dies out: w(n)*dt <= pi/(2*sqrt(k*n)) once at most a quarter turn is made per step. The point of the body that should stay on the pivot moves in each step by a*sqrt((1-cos d)^2 + (d-sin d)^2) with d the angle turned, that is whenever the body turns.", "quantifier": "all worlds with a body held by one revolute joint to the world and free of contacts, all forces (C105_step), masses, inertias, arms, step lengths and halvings, contact searches, exact solvers; existence of the endless run for every single body", "why_tests_cant": "a short run looks right: the loss per step is of the order of the square of the angle per step; that the body stops needs all steps", "anchors": ["lcp_physics/physics/constraints.py:Joint.J", "lcp_physics/physics/constraints.py:Joint.update_pos", "lcp_physics/physics/constraints.py:Joint.move", "lcp_physics/physics/world.py:World.step_dt", "lcp_physics/physics/engines.py:PdipmEngine.solve_dynamics"]}
{"id": "C106", "title": "Two bodies fixed to each other drift apart without bound when they turn", "statement": "FixedJoint makes the velocities of two bodies those of one rigid body, but the bodies are then moved along straight lines and update_pos recomputes the offset between them from their positions, so that the joint forgets how far apart they were. For two bodies fixed to each other and free of other joints and contacts: both leave the step with the same angular velocity, the one that conserves the angular momentum of the pair about the common centre of mass plus the moment of the forces; momentum is conserved up to the forces; the offset D of the centres becomes D + w*d*(D turned by a right angle), where d is the length of the step. Hence the square of the distance is multiplied by 1 + (w*d)^2 in every step, it never decreases, and it grows exactly when the pair turns. Without forces and in steps of full length the angular momentum about the centre of mass is the same after every step, the distance after n steps is at least (1 + 2*n*(w1*dt)^2)^(1/4) times that at the start, exceeds every bound, and the rotation dies out, for every step length.", "quantifier": "all worlds with two bodies held only by one FixedJoint between them and touching nothing, all forces (C106_step), masses, inertias, offsets, step lengths and halvings, contact searches, exact solvers; existence of the endless run for every two bodies that called add_no_contact", "why_tests_cant": "in one step the distance grows by the fraction (w*dt)^2/2, below any visual check; that it exceeds every bound needs all steps", "anchors": ["lcp_physics/physics/constraints.py:FixedJoint.J", "lcp_physics/physics/constraints.py:FixedJoint.update_pos", "lcp_physics/physics/constraints.py:FixedJoint.move", "lcp_physics/physics/world.py:World.step_dt", "lcp_physics/physics/engines.py:PdipmEngine.solve_dynamics", "demos/fixed_joint_demo.py:fixed_joint_demo"]}
{"id": "C107", "title": "A row of touching balls is hit like one rigid body: Newton's cradle is not reproduced", "statement": "solve_dynamics resolves all contacts of a step together, with one restitution condition per contact. Balls in a row along the x-axis whose gaps are at most eps are in contact although they do not touch. When a ball s of the row has the speed a+u and all others a, with one restitution e for all balls, then after the step the r balls behind it up to the first gap larger than eps have the common speed a + (1+e)*m*u/(m+M), and ball s the speed a + (m-e*M)*u/(m+M), where m is its mass and M the sum of the masses of the r balls: exactly the impact of ball s on one body of mass M. All other balls keep their speed. Friction, spins and velocities across the row do not matter. Consequences: n+1 equal balls with e=1 and gaps at most eps: the first recoils with (n-1)/(n+1)*u and the others leave together with 2u/(n+1), which conserves momentum and energy but is not what a cradle does (the last ball alone leaves with u); when the second gap exceeds eps, balls 0 and 1 exchange velocities. The velocity of the third ball, as a function of the gap in front of it, jumps from 2u/3 to 0 at eps.", "quantifier": "all numbers of balls, masses, radii, frictions, spins, cross velocities, restitutions e>=0, gaps, forces without x-component, step lengths and halvings, broad phases, exact solvers; world and first step exist for all such rows", "why_tests_cant": "a test fixes one number of balls and one gap, and conservation of momentum and energy, the usual checks, both hold; the jump is invisible at any single gap", "anchors": ["lcp_physics/physics/engines.py:PdipmEngine.solve_dynamics", "lcp_physics/physics/world.py:World.restitutions", "lcp_physics/physics/world.py:World.Jc", "lcp_physics/physics/world.py:World.step_dt", "lcp_physics/physics/contacts.py:DiffContactHandler.__call__"]}
{"id": "C108", "title": "The simulation does not depend on the units of length and time, as long as bodies stay below the built-in constant 1e10", "statement": "A scene is described twice, the second time with all lengths multiplied by k and all times by s (positions, radii, vertices, dimensions, eps, tol by k; dt by s; velocities by k/s; forces by k/s^2, torques by k^2/s^2; masses unchanged). The constructors Circle, Hull and Rect and the joints give the same bodies in the new units, inertias included. The contact search finds the same contacts, and every solution of the contact problem of a step, rescaled, solves the problem in the other units; likewise for post-stabilization. So when a frictionless world can be built and run, the second can be built and run with an exact solver, and shows the same scene at every step and at the end, with the same halvings of steps. For circles this holds for every k and s. For other shapes it needs bodies that contain their reference point and have 6R < 1e10 in both units, R the size of the bodies; the condition is needed: two unit squares at the same place collide, but in a unit 1e10 times smaller the search raises UnboundLocalError.", "quantifier": "all factors, bodies, joints, forces that scale, numbers of steps, run times, step modes, post_stab on or off, unit-independent broad phases, random streams, exact solvers; frictionless bodies for the run", "why_tests_cant": "no test runs the same scene in two units; a constant with a hidden dimension only matters in some other unit", "anchors": ["lcp_physics/physics/world.py:World.step_dt", "lcp_physics/physics/world.py:World.__init__", "lcp_physics/physics/world.py:run_world", "lcp_physics/physics/engines.py:PdipmEngine.solve_dynamics", "lcp_physics/physics/engines.py:PdipmEngine.post_stabilization", "lcp_physics/physics/contacts.py:DiffContactHandler.__call__", "lcp_physics/physics/contacts.py:DiffContactHandler.test_separations", "lcp_physics/physics/contacts.py:DiffContactHandler.get_support", "lcp_physics/physics/bodies.py:Circle.__init__", "lcp_physics/physics/bodies.py:Hull.__init__", "lcp_physics/physics/bodies.py:Rect.__init__", "lcp_physics/physics/constraints.py:Joint.__init__"]}
{"id": "C109", "title": "A scene that falls freely behaves as if there were no gravity, and falls by whole steps even when steps are cut short", "statement": "A frictionless scene of free bodies is run twice, the second time with an additional weight m*gamma on every body (as by Gravity objects, possibly also seen from a turned, shifted and moving frame). Step by step both runs have the same contacts, the same halvings and the same clock, and the second shows the first from a frame that falls: in each step its velocity grows by dt*gamma, for the full dt also when the step is cut short, and it moves with this velocity for the actual length of the step. So after n steps all velocities differ by n*dt*gamma, and, when no step is cut short, all positions by n*(n+1)/2*dt^2*gamma. Impulses at contacts, with friction too, are the same in both laws. With an exact solver the falling run returns whenever the other does.", "quantifier": "all frames, gamma, worlds of free bodies of any shapes without friction, further forces, step lengths, halvings, post_stab on or off, broad phases that do not depend on the frame, random streams, exact solvers, numbers of steps", "why_tests_cant": "tests with gravity have a floor; that contacts, step lengths and impulses of a falling scene do not feel gravity compares two whole runs", "anchors": ["lcp_physics/physics/world.py:World.step_dt", "lcp_physics/physics/world.py:World.step", "lcp_physics/physics/world.py:World.apply_forces", "lcp_physics/physics/engines.py:PdipmEngine.solve_dynamics", "lcp_physics/physics/engines.py:PdipmEngine.post_stabilization", "lcp_physics/physics/world.py:run_world", "lcp_physics/physics/forces.py:Gravity"]}
{"id": "C110", "title": "With one contact the solver stops in the wrong place for heavy or light bodies, and pushes apart bodies at rest", "statement": "An LCP with a single inequality (the problem of post_stabilization with one contact) can be solved by hand: x0 is the point without the inequality, u the displacement by a unit multiplier, c = G*u + F the compliance and b = h - G*x0 the free slack; the only solution is x0 + min(b,0)/c*u. On these problems the iterations of pdipm.forward reduce to a recursion for the pair (s,z) with s - c*z -> b, and the solver starts at x0 + b/(1+c)*u. With the default not_improved_lim = 3: (1) if c <= 1/330, b <= -330 and c*b^2 >= 9 (heavy bodies), it returns the starting point, where the multiplier has only the fraction c/(1+c) of the value needed, for every eps and max_iter; (2) if c >= 400 and b is large (light bodies far from contact), it also returns the starting point, though the inequality should not act; (3) once s - c*z = b holds, each iteration divides the residual by more than 6; (4) with c = 1 and b = 0 the iterates are known exactly, s = z = (49/128)^j, so that max_iter = k+1 returns x0 - (49/128)^k*u. So post_stabilization, which has ten iterations, returns for bodies that rest against each other with unit compliance the correction (49/128)^9 (about 1.8e-4) times u where its law asks for 0, and for heavy fast bodies returns c/(1+c) of the displacement its law asks for.", "quantifier": "all dimensions, equality constraints, positive definite Q, F >= 0, all factorisations that are correct, eps, max_iter, worlds with one contact, joints and masses within the stated bounds", "why_tests_cant": "the outcome depends on masses and speeds outside the range of the demos; that no later iteration helps is a statement about the whole run, and the closed form holds for every number of iterations", "anchors": ["lcp_physics/lcp/solvers/pdipm.py:forward", "lcp_physics/lcp/solvers/pdipm.py:get_step", "lcp_physics/lcp/solvers/pdipm.py:solve_kkt", "lcp_physics/lcp/solvers/pdipm.py:factor_kkt", "lcp_physics/lcp/lcp.py:LCPFunction.forward", "lcp_physics/physics/engines.py:PdipmEngine.post_stabilization"]}
{"id": "C111", "title": "Why post-stabilisation applies one half of its displacement: the half, and only the half, removes the second order of the drift", "statement": "step_dt moves the bodies, asks post_stabilization for a displacement dp, divides it by two ('XXX Why 1/2 factor?', world.py:110) and moves the bodies along it. For a body on a pivot (arm A, of the moment of inertia about the pivot the share k is due to the arm), touching nothing: the velocity after the step is that of the step without stabilisation, but the body is moved along the mean of this velocity and of the velocity that turns it about the pivot where the first move has put it, the trapezoidal rule. If the part lam of dp is applied (0 is no stabilisation, 1 the whole of it) and the step turns the body by delta, the pivot moves by |lam-1/2|*|A|*delta^2 to leading order, and the drift is O(delta^3) exactly for lam=1/2, where it is at most |A|*|delta|^3/3. So n steps without forces move the pivot by at most n*|A|*(|w|*dt)^3/3, and for ever by at most 4*|A|*|w|*dt/(3k). The rotation is braked and stops, as without stabilisation. For two bodies fixed to each other the square of the distance grows per step by at most the fraction delta^4*(1+delta^2)/4, not by delta^2, and stays for ever below R*exp(2*(w*dt)^2/c), where without stabilisation it exceeds every bound (C106); in exchange the angular momentum, which the step without stabilisation conserves, decreases.", "quantifier": "all worlds with a body on one pivot or with two bodies fixed to each other that touch nothing, all forces (C111_step), masses, inertias, arms, step lengths and halvings, contact searches, exact solvers; all parts lam in [0,1]; existence of the endless runs", "why_tests_cant": "the code itself asks why the factor is 1/2; a test shows a smaller drift for one step length, not its order, nor that no other factor has it", "anchors": ["lcp_physics/physics/world.py:World.step_dt", "lcp_physics/physics/engines.py:PdipmEngine.post_stabilization", "lcp_physics/physics/engines.py:PdipmEngine.solve_dynamics", "lcp_physics/physics/constraints.py:Joint.move", "lcp_physics/physics/constraints.py:Joint.update_pos", "lcp_physics/physics/constraints.py:FixedJoint.update_pos"]}
{"id": "C112", "title": "Without forces velocities can only change so much: the energies of all velocity changes of a run have a bounded sum", "statement": "In a scene without forces every change of velocity must be paid for from the initial kinetic energy E0. (1) With restitution zero (any shapes, contacts, friction, constraints, post-stabilisation on or off) a step loses at least the kinetic energy of its change of velocity, K(v'-v). (2) Free bodies without friction and of one restitution e lose exactly (1-e)/(1+e)*K(v'-v). So with q = 1 or q = (1-e)/(1+e): over any number of steps q times the sum of K(v'-v) is at most E0 minus the final energy; at most E0/(q*d) steps of an endless run change the velocities by an energy of d or more; the sum over an endless run is finite and the changes tend to zero. In a scene without constraints to the world E0 can be replaced by the energy in excess of the common motion, E0 - |P|^2/(2M). (3) A step leaves all velocities as they are if no constraint velocity is violated and every contact separates with (1+e)*vn >= mu*|vt|; without friction this holds if and only if no constraint is violated and no contact is approached.", "quantifier": "all worlds reachable with the engine invariant, contact searches that report bodies of the world, numbers of steps, step lengths and halvings, joints, exact solvers", "why_tests_cant": "a bound on all changes of velocity of an endless run cannot be observed in a finite test; the exact share lost holds for all numbers of simultaneous contacts", "anchors": ["lcp_physics/physics/world.py:World.step_dt", "lcp_physics/physics/engines.py:PdipmEngine.solve_dynamics", "lcp_physics/physics/world.py:World.restitutions", "lcp_physics/physics/world.py:World.Jc", "lcp_physics/physics/world.py:World.Je"]}
{"id": "C113", "title": "The order of the two bodies of a pair does not matter, except in a tie of two hulls, where it decides the contact normal", "statement": "space.collide presents each pair of geometries in an order of its own. (1) If one of the two bodies is a circle, presenting the pair in the other order gives the same contacts seen from the other body (normal negated, points and indices exchanged), the same hidden state and the same failure, if any; so for a list of such pairs, each presented in either order, the whole search ends in the same way. (2) For two hulls the same holds unless the two separations found by test_separations are exactly equal and no more than eps. (3) The contact law (dynamics, restitution, friction cone) has the same solutions and impulses for contacts seen from either body. (4) In a tie the first body of the pair supplies the reference face, and this matters: for two overlapping squares, one of them turned, the contact normal is (1,0) for one order and (3/5,4/5) for the other, and every solution of the contact law leaves the approaching square without vertical velocity in the first case and throws it upwards in the second.", "quantifier": "all bodies, poses, eps, hidden states, random streams, numbers of pairs with a symmetric no_contact relation; all velocities, forces, impulses, joints; the tie is a concrete witness", "why_tests_cant": "the order of the pairs is chosen by ODE's hash space and cannot be controlled in a test; exact ties are rare in random tests but usual in built scenes", "anchors": ["lcp_physics/physics/contacts.py:DiffContactHandler.__call__", "lcp_physics/physics/contacts.py:DiffContactHandler.test_separations", "lcp_physics/physics/world.py:World.find_contacts", "lcp_physics/physics/world.py:World.Jc"]}
{"id": "C114", "title": "Left and right, and the order in which the bodies are listed, do not matter", "statement": "The list of bodies given to World fixes their indices, and with them the rows and columns of M, Je, Jc and the order in which everything is assembled; the formulas for perpendicular vectors and rotations prefer one sense of rotation. Neither shows in the motion: take a scene of frictionless circles with any joints and constraints, list its bodies in another order, or exchange left and right (x -> -x, angles and angular velocities negated, a hinge at the mirrored anchor), or both. Then (1) the velocities after an impact, and (2) the displacement of post_stabilization, are the image of those of the original scene; (3) after any two runs with the same number of steps (contacts, halvings, substeps forced by tol, stabilisation), the worlds are images of each other: same clock, mirrored poses, velocities, joint anchors and contacts at the permuted places. Gravity is its own mirror image.", "quantifier": "all permutations of the bodies, both reflections, all worlds of frictionless circles with positive masses, joints of all kinds in any order, broad phases that present the same pairs in any order, symmetric no_contact relations, forces that are images of each other, exact solvers (also two different ones), step lengths, numbers of steps", "why_tests_cant": "the number of orders grows factorially; equality for one scene does not exclude a sign error that cancels there", "anchors": ["lcp_physics/physics/world.py:World.__init__", "lcp_physics/physics/world.py:World.step_dt", "lcp_physics/physics/world.py:World.M", "lcp_physics/physics/world.py:World.Je", "lcp_physics/physics/world.py:World.Jc", "lcp_physics/physics/engines.py:PdipmEngine.solve_dynamics", "lcp_physics/physics/engines.py:PdipmEngine.post_stabilization", "lcp_physics/physics/contacts.py:DiffContactHandler.__call__", "lcp_physics/physics/constraints.py:Joint.update_pos", "lcp_physics/physics/constraints.py:Joint.move"]}
{"id": "C115", "title": "The demo scenes start, what is fixed stays, and the clock shows the time", "statement": "Nine scenes are shipped in demos/demo.py, demos/fixed_joint_demo.py and tests/test_demos.py. (1) Each of them starts: World.__init__ returns for every broad phase and every random start of the contact search, with every body in the pose written in the script, no contacts, forces that can be evaluated at all times, and a first system of equations that has a solution, whatever the LCP solver. (2) The slopes (a TotalConstraint) keep the written pose for ever, whatever hits them; the tests tilt their slope by setting an angular velocity and calling move(1), which ends in the same pose as the constructor call of the demo. (3) The circle called clock shows the time: in every run in which no contact search reports a contact with it, its angle at the end of run_world is the simulated time, in [run_time, run_time + dt), and its place is unchanged - with halvings of dt, friction, hinges, impacts and post-stabilisation of the other bodies. The same for every body of any scene without forces and joints. (4) A body excluded by add_no_contact from all others is never touched.", "quantifier": "all nine scenes; all broad phases, random starts, run lengths; (3) all scenes of circles and rectangles that start apart, all bodies without forces and joints in them; exact LCP solvers in (2) and (3)", "why_tests_cant": "a test of a demo runs one random start and looks at no result (tests/test_demos.py asserts nothing); that another body's impacts and stabilisation never leak into a free body concerns every step of every run", "anchors": ["demos/demo.py:debug_demo", "demos/demo.py:chain_demo", "demos/demo.py:slide_demo", "demos/demo.py:fric_demo", "demos/fixed_joint_demo.py:fixed_joint_demo", "tests/test_demos.py:TestDemos.testSlide", "tests/test_demos.py:TestDemos.testFric", "lcp_physics/physics/world.py:World.__init__", "lcp_physics/physics/world.py:World.step_dt", "lcp_physics/physics/world.py:run_world", "lcp_physics/physics/bodies.py:Body.add_no_contact"]}
{"id": "C116", "title": "The seven KKT solvers of the development version: which agree, which are opposite, and two errors that cancel", "statement": "lcp/solvers/dev_pdipm.py offers seven ways of solving the KKT system. (1) IR_INVERSE solves for +r instead of -r, IR_UNOPT corrects with the wrong sign. Without refinement their steps are opposite; with the one sweep both perform by default they are exactly equal, and so whole runs of forward with IR_INVERSE return bit for bit (in exact arithmetic) what runs with IR_UNOPT return. With further sweeps the residual of IR_INVERSE shrinks by eps/(lam+eps) per sweep, that of IR_UNOPT about doubles (C61). (2) LU_FULL, with C_tilde of the opposite sign, is IR_UNOPT without refinement; its step satisfies Newton's equations up to eps times itself. SP_LU_FULL runs as LU_FULL does when there are equalities, whatever the factorisations, and raises when there are none. (3) SP_IR_UNOPT factorises with D instead of D_tilde: its step satisfies the complementarity rows exactly after any number of sweeps, that of the dense variant does not. (4) Without regularisation every variant that returns computes Newton's step. (5) For positive semidefinite Q and monotone F the regularised variants LU_FULL, IR_UNOPT, IR_INVERSE return for every system of equalities; LU_PARTIAL, which the library uses, raises on a repeated equality. (6) Without regularisation, for positive definite Q, independent equalities and monotone F, the variants LU_FULL, IR_UNOPT, IR_INVERSE return, and every variant that returns gives the best iterate that the library's solver gives: same start, same steps, same stopping.", "quantifier": "all sizes, matrices, right hand sides, numbers of sweeps and passes, regularisations, tolerances, pairs of factorisations", "why_tests_cant": "the file cannot even be imported (binverse does not exist), and equal results of two variants on test problems would not show that both are wrong in ways that cancel only for niter=1", "anchors": ["lcp_physics/lcp/solvers/dev_pdipm.py:forward", "lcp_physics/lcp/solvers/dev_pdipm.py:KKTSolvers", "lcp_physics/lcp/solvers/dev_pdipm.py:solve_kkt_ir_inverse", "lcp_physics/lcp/solvers/dev_pdipm.py:solve_kkt_inverse", "lcp_physics/lcp/solvers/dev_pdipm.py:sparse_solve_kkt_ir", "lcp_physics/lcp/solvers/dev_pdipm.py:sparse_factor_solve_kkt", "lcp_physics/lcp/solvers/dev_pdipm.py:factor_solve_kkt"]}
{"id": "C117", "title": "Free flight of circle scenes, and the gradient descent of demos/grad_demo.py: it stops where the push misses, cannot go far, and prints an outdated result", "statement": "(1) A scene of circles without constraints: as long as the paths of free flight keep all pairs that may touch more than the contact tolerance apart, run_world returns and every body has flown its path, with any LCP solver. (2) grad_demo learns a push that makes one ball hit another towards a target. The target never moves, whatever the push. For every push whose ball does not come near the second ball within the 210 steps (for instance every push with horizontal part at most 1.29) the run returns, the measured distance is exactly 50*sqrt(5), its derivative in every direction is zero, and gradient descent from there leaves the push unchanged and ends within two iterations. The push the demo starts from is not of this kind. (3) With gradient components bounded by G, no component of the push can move by more than 0.01*G in the whole descent, because the rates add up to less than 0.01. (4) Whatever happens when the balls meet, the sum of their final positions is (650,460) + (10t - 1/3)*F for the final time t. (5) The distance printed at the end belongs to the push before the last correction: the last run makes a new world but measures the bodies of the loop.", "quantifier": "(1) all scenes of circles, forces, numbers of steps; (2)-(5) all pushes, broad phases, random starts, gradient functions that return derivatives where these exist, bounds G; (4) all exact solvers, with impacts, friction and shortened steps", "why_tests_cant": "the dead zone is an open set of pushes; the bound on the reach concerns all gradient sequences; the printed distance looks right in any test because it is a distance the program has really measured", "anchors": ["demos/grad_demo.py:grad_demo", "demos/grad_demo.py:make_world", "lcp_physics/physics/world.py:run_world", "lcp_physics/physics/world.py:World.step_dt", "lcp_physics/physics/engines.py:PdipmEngine.solve_dynamics", "lcp_physics/physics/contacts.py:DiffContactHandler.__call__"]}
{"id": "C118", "title": "The learning loops of inference.py and learn_params.py: steps do not depend on the size of the gradient, the mass can become negative, and the learner can stop at a wrong speed", "statement": "Both experiments use RMSprop. (1) No step is as long as ten times the learning rate, whatever the gradient; it goes against the gradient; the memory is the mean square of the gradients with weights 0.01*0.99^i. The first step is between 9.98 and 10 times the learning rate for every gradient of at least 5e-5. (2) inference.py: the mass drawn in [0,1) is after one iteration either below -3.98 (the code has a MASS_EPS but uses it nowhere) or between 4.98 and 6, according to the sign of the gradient only; if the first two gradients ask for more mass and the second is no weaker, the second step carries it beyond 8.4 (the true mass is 7); after k iterations it is less than 5k from the start. Where the gradient is zero the inference is over within two iterations. What main reports belongs together: each recorded loss is the loss of the mass recorded before it, at most 100 are recorded, the reported loss is that of the reported mass, and the true mass has loss zero. Had the runs been stopped before the impact, main would return the random mass with loss zero. (3) learn_params.py: the loss of a game without contacts is spread/(4(n+1)) times the squared error of the speed, with the gradient of that parabola; on such games each iteration brings both components nearer by a constant factor or leaves them within 0.3, and a guess never gets worse than it was or than 0.3. (4) Errors need not go away: on a parabola the optimiser has a cycle at distance lr/2 from the minimum (0.25 for the mass, 0.015 for the speed), and infer_params started 0.15 off in both components finds the same loss twice, and stops after two iterations of a thousand, more than 0.06 off. (5) Neither loop stops early otherwise: a loop that returns before its last iteration has just found a loss within its tolerance (1e-3 for the mass, 1e-15 for the games) of the one before, and all earlier ones differ by at least that.", "quantifier": "all learning rates, gradients and histories of gradients; all simulations and gradient functions in (2); all games without contacts, factors, action lists and speeds in (3)", "why_tests_cant": "statements about all gradient sequences and random starts; a run of an experiment shows one; stopping conditions met by coincidence are not hit by random trials", "anchors": ["experiments/inference.py:main", "experiments/inference.py:positions_run_world", "experiments/breakout/learn_params.py:infer_params", "experiments/breakout/run_breakout.py:simulate_breakout"]}
{"id": "C119", "title": "The clock in double precision", "statement": "With the time kept in IEEE double precision, rounded to nearest (any tie rule): (1) after n <= 2^53 steps of length dt the clock is off by at most n^2 2^-53 dt, and it never runs backwards. (2) run_world makes at least T/dt - N^2 2^-53 and less than T/dt + 1 + N^2 2^-53 steps, and returns for every run time up to 2^25 steps. (3) With DT = 1/30 rounded to even, the demos with run time 7 and 10 make, when no step is cut, 211 and 301 steps, one more than exact arithmetic (30 per second); those with 20 and 40 make 600 and 1200; test_hull with 180 makes 5401. The forces that depend on the time (fric_demo: 1 < t < 2; grad_demo: t < 0.1) act in 29 and 3 steps, as in exact arithmetic. (4) step(fixed_dt=True) from a time of at least one step ends exactly at the rounded t + dt, however its sub-steps are cut, and ends as soon as one sub-step is accepted whole. (5) From t = 2^49 on a step shorter than 1/16 is lost: run_world with a later end never returns. Without rounding the clock is that of the world model.", "quantifier": "for all double precision step lengths, numbers of steps, run times, and cuttings of sub-steps; all roundings to nearest", "why_tests_cant": "the off-by-one count depends on the accumulated rounding of hundreds of additions; a test that looks at the end state does not count steps; the standstill needs 2^54 steps", "anchors": ["lcp_physics/physics/world.py:World.step", "lcp_physics/physics/world.py:World.step_dt", "lcp_physics/physics/world.py:run_world", "lcp_physics/physics/utils.py:Defaults.DT", "demos/demo.py:fric_demo", "demos/grad_demo.py:grad_demo"]}
{"id": "C120", "title": "The game loop of run_breakout: what is counted, which actions are sent, the measured velocity, and when it returns", "statement": "run_breakout plays episodes of a gym game with a controller (mpc, a parameter). (1) The returned average is the sum, over the episodes, of the rewards of the moves chosen by the controller without the reward of the move that ended the episode, divided by their number. The rewards of the start moves and of the last move are lost: there is a game in which an episode earns 7 points and 1 is returned, neither the points of the episode nor those of the chosen moves. (2) Every action is 1 (start), 0, 2 or 3; an action other than 1 was chosen by the controller from its first planned value; an episode goes on only while the replies do not say stop; the number of start moves is five times one more than the number of lost lives, of which there are at most five if lives are not negative. With a threshold above 1 the paddle never moves. The paddle moves to the side to which the simulated one moves. (3) In every pass the plan has T entries, and the controller is given the state of the last screen and the displacement of the ball between the last two screens of the log. On drawn screens this is the displacement of the painted ball. When the ball was not on the screen before, the velocity is below -20000 (upwards) wherever it moves, and the cost then has no term for the paddle or the ball. (4) The loop returns if every screen is readable and the controller returns plans of length T, for every T, number of episodes and threshold; without paddle_vel, with no episodes, and with T = 0 it raises.", "quantifier": "for all games (states, screens, rewards, lives), controllers, random numbers, thresholds, horizons, numbers of episodes and of steps", "why_tests_cant": "the atari game is random and an episode is long; rewards of start moves are zero in the real game until it changes; a lost last reward looks like a worse policy; the wrong velocity occurs only after a screen without a ball", "anchors": ["experiments/breakout/run_breakout.py:run_breakout", "experiments/breakout/run_breakout.py:get_action", "experiments/breakout/run_breakout.py:to_vector", "experiments/breakout/run_breakout.py:mpc", "experiments/breakout/encoder.py:extract_params"]}
{"id": "C121", "title": "The contact search never fails on circles and convex hulls; whole runs of smooth convex hulls return; the scenes of tests/test_hull.py", "statement": "(1) A Hull made from a convex polygon (no three corners in line, diameter at most 1e9), in any state of its life, a Circle and a Rect of such size qualify: on bodies like these, in any poses, with any broad phase, exclusions and history, DiffContactHandler returns. GJK ends within n^3+2 rounds for n corners, every support query succeeds, every separation test finds an edge, the incident edge is never parallel to the reference normal, no clipping divides by zero. The numbers are finite except in the degenerate poses of C94 (two concentric circles, or a circle whose centre is on a segment between two corners of the other body). (2) So a step of a frictionless world of such bodies with tree-like constraints and the library's solver raises only after trying a degenerate pose; with hulls and rectangles alone it never raises, and a whole non-strict run_world returns at a time in [T, T+dt). (3) rotate_verts on a fresh hull gives exactly the body the constructor makes of the turned polygon (pose, inertia, broad-phase radius). (4) testCentroid and testAngInertia hold with equality: the centre is exactly (10,10) from the reference point wherever that is, and the tilted square has the inertia of the Rect for every mass. (5) testRender and testSlide start: all hulls are accepted, no two bodies are within the tolerance, the world is made without contacts and the engine's first call answers; no later search of testRender fails in any pose of its bodies; the slope of testSlide stays at (500,300) with angle zero.", "quantifier": "all convex polygons, poses, broad phases, exclusions, histories, tolerances; all frictionless worlds of such bodies with forces; (5) all solvers (exact ones for the slope)", "why_tests_cant": "a failing clip or separation test needs exact coincidences of edges, which random scenes do not show; the tests run two scenes for a limited time and assert nothing about them; the inertia test passes for every smaller value", "anchors": ["lcp_physics/physics/contacts.py:DiffContactHandler.__call__", "lcp_physics/physics/contacts.py:DiffContactHandler._test_separations", "lcp_physics/physics/contacts.py:DiffContactHandler._clip_segment_to_line", "lcp_physics/physics/contacts.py:DiffContactHandler.gjk", "lcp_physics/physics/bodies.py:Hull.__init__", "lcp_physics/physics/bodies.py:Hull.rotate_verts", "lcp_physics/physics/world.py:run_world", "tests/test_hull.py:TestHull"]}
{"id": "C122", "title": "Bodies in double precision: poses, vertices, broad phase, undone steps", "statement": "move, set_p and rotate_verts with every operation rounded to nearest (any tie rule) and sine and cosine accurate to 2^-52. Vertices are never recomputed from the angle: each call turns the stored ones by the rounded difference of the stored angles, so errors add up. (1) After n calls that turn a body by T radians altogether (counted with both signs) each vertex at distance R from the centre is within (R + n 2^-1071) exp((11 n + T) 2^-53) - R of the place to which the stored angle turns the vertex it started from; distances of vertices change by no more than the sum of two such bounds. For a million calls, a million radians and R <= 1000 this is below 2e-6. (2) The corners of a Rect stay exactly opposite. (3) If the drift is at most D, the broad-phase geometry still contains every point within eps - D of the body. (4) In each coordinate the pose differs from that of exact arithmetic by at most n (B 2^-52 + 2^-1074) + 2^-53 (way), with B a bound of the coordinate. (5) The naive property that a trial step which is undone (world.py:104) leaves no trace is false: the pose is restored exactly, but with correctly rounded sine and cosine the vertex (2 - 2^-52, 0) is not where it was after turning by 5*2^-29 and back. Without rounding the model is that of the other properties.", "quantifier": "all bodies, sequences of set_p, move and velocity assignments, roundings to nearest, sines and cosines within 2^-52", "why_tests_cant": "the drift is below the tolerances of a test for any run short enough to test; a bound over all sequences cannot be sampled; the undo error is one unit in the last place and depends on the tenth digit of the angle", "anchors": ["lcp_physics/physics/bodies.py:Body.move", "lcp_physics/physics/bodies.py:Body.set_p", "lcp_physics/physics/bodies.py:Hull.set_p", "lcp_physics/physics/bodies.py:Hull.rotate_verts", "lcp_physics/physics/bodies.py:Rect.rotate_verts", "lcp_physics/physics/utils.py:rotation_matrix", "lcp_physics/physics/world.py:World.step_dt"]}
{"id": "C123", "title": "Strict worlds of circles in double precision: every step returns, and nothing overlaps beyond rounding", "statement": "The penetration of two circles, the halving of the step, the poses and the clock are computed with every operation rounded to nearest (any tie rule); the velocities, i.e. the engine, forces and joints, are arbitrary. (1) The computed penetration is within 7*2^-53 (r1+r2+distance) + 2^-530 of the true one. So a position that passes the test (world.py:95) has no overlap deeper than tol + 14*2^-53 (r1+r2) + 2^-530 between bodies that may touch, and one that fails it has an overlap above tol less the rounding error. (2) If half of the smallest number is rounded to zero (ties to even), the loop of step_dt always returns: the step is halved to zero after at most 2100 attempts, and then the bodies are where they were. So every step of every run returns, and the bound of (1) holds after each. (3) It returns much earlier: after k+1 attempts, if k halvings make the displacement of each coordinate at most 2^-56 of it. (4) The clock does not run backwards. (5) In exact arithmetic this is false (C27): two touching circles pressed together with tol = 0 are never accepted. In double precision the same step returns within 55 attempts, with the clock advanced by at most 2^-47 instead of 1. Without rounding the model is that of the other properties.", "quantifier": "all numbers of circles, radii, poses and velocities, exclusions, broad phases, tolerances, step lengths up to 2^1024, lengths of runs, roundings to nearest", "why_tests_cant": "whether the loop ends depends on underflow of the step or on displacements below the last place, which no assertion on positions shows; a bound over all configurations cannot be sampled", "anchors": ["lcp_physics/physics/world.py:World.step_dt", "lcp_physics/physics/world.py:World.find_contacts", "lcp_physics/physics/world.py:World.set_p", "lcp_physics/physics/contacts.py:DiffContactHandler.__call__", "lcp_physics/physics/bodies.py:Circle.set_p", "lcp_physics/physics/bodies.py:Body.move"]}
{"id": "C124", "title": "With shorter steps the simulation approaches Newton's motion, to first order, until a contact; at a contact it does not", "statement": "A scene of circles without constraints under forces that depend on the time (accelerations at most A, changing at most by L per unit of time). (1) After the time T = M h the velocities of the M steps of length h differ from those of Newton's equations by at most L T h in each component and the poses by at most T (A + L T) h. (2) If in Newton's motion all pairs that may touch stay farther apart than eps by more than 4 T (A + L T) h, then the constructor and run_world return, no contact is ever seen, and the final world satisfies (1); so for every scene with some margin and every accuracy there is a number of steps from which on the simulation is that accurate, with any LCP solver. (3) First order is what one gets: under a constant force the velocities are exact and the poses are ahead by h/2 times the velocity gained. (4) vert_impulse pushes for whole steps: the velocity gained is that of a push that lasts between 0.1 and 0.1 + h. (5) At a contact shorter steps do not help: a ball falling on a floor turns round when it comes within the contact distance eps; with step h and speed u it never gets below eps - u h, and after the bounce it is too high by more than (1+e)(eps - u h) and at most (1+e) eps.", "quantifier": "all scenes of circles, time-dependent Lipschitz forces, step lengths, run times, exclusions, broad phases, LCP solvers; (5) all balls, floors, restitutions, speeds, exact solvers", "why_tests_cant": "convergence is a statement about all step lengths at once; the error after a bounce is 0.1 pixel units at the default and invisible unless compared with the exact motion", "anchors": ["lcp_physics/physics/world.py:World.step_dt", "lcp_physics/physics/world.py:run_world", "lcp_physics/physics/engines.py:PdipmEngine.solve_dynamics", "lcp_physics/physics/forces.py:vert_impulse", "lcp_physics/physics/bodies.py:Body.move", "lcp_physics/physics/contacts.py:DiffContactHandler.__call__"]}
{"id": "C125", "title": "Joints come apart along a run by an amount of first order in the step length, bounded in terms of the initial world; in the limit of short steps they hold", "statement": "Joints constrain velocities only, and bodies move along straight lines, so each step parts the two points a joint holds together. (1) For a hinge of two bodies in any world (other joints, contacts, any engine) whose joint velocities after each step are at most eps and whose two bodies turn at most at Omega: after the time T in steps of at most dt the two points that were together at the hinge are at most exp(Omega^2 dt T/2)(R + 2 eps T) - R apart, R being the sum of the distances of the hinge from the two centres at the start. The same for a FixedJoint at the first body's centre, and the angle between the bodies changes by at most eps T. A body hinged to the world leaves the place of the hinge by at most (Omega^2 dt/2 R + 2 eps) T. (2) With an exact solver eps is 0; with the library's solver it is the greatest residual of the LCPs. (3) With zero restitution the root of twice the kinetic energy grows by at most dt F per step, F being the size of the forces weighed with the inverse masses. So (1) becomes a bound in terms of the initial velocities, the forces, the least moment of inertia and T alone. (4) For every span of time and every tolerance there is a step length below which no such run parts the joint by more than the tolerance. (5) Double pendulums under gravity run for as long as one likes, and (4) applies to both hinges.", "quantifier": "all worlds without post-stabilization, joints, contacts without restitution, forces of bounded size, step lengths, lengths of runs", "why_tests_cant": "the parting of one step is of second order and hidden by any tolerance; a bound for all runs and the existence of a good step length are not statements about finitely many runs", "anchors": ["lcp_physics/physics/constraints.py:Joint", "lcp_physics/physics/constraints.py:FixedJoint", "lcp_physics/physics/world.py:World.step_dt", "lcp_physics/physics/engines.py:PdipmEngine.solve_dynamics", "lcp_physics/physics/bodies.py:Body.move"]}
{"id": "C126", "title": "With shorter steps a body on a pivot follows the pendulum equation, to first order", "statement": "A body joined to the world at a point (Joint with one body), not touched, under a constant force, moving about the pivot at the start. (1) Angle and angular velocity of the run obey w' = w(1 - k(1 - cos(w h))) + h a(phi), phi' = phi + h w', where a is the angular acceleration about the pivot of Newton's equations and k the share of the mass in the moment of inertia about the pivot; in the first step the loss k(1 - cos) is absent. (2) The equation theta'' = a(theta) has a solution for every span of time T and initial angular velocity; for the weight of a body hung up at the distance l it is theta'' = -(m g l/(I + m l^2)) sin(theta). (3) For every solution, with steps h <= 1, the angular velocity and the angle after n steps, n h <= T, are together within C h of the solution, and the centre is within |A| (W^2 T/2 + C) h of the point of the circle about the pivot that belongs to the solution's angle; C and W are given in terms of T, the force, mass, moment of inertia, arm and the initial angular velocity. (4) For every body of the library, pivot, gravity and initial angular velocity the worlds of all step lengths are made, run for ever, and stay within one constant times the step length of one solution.", "quantifier": "all bodies, pivots, constant forces, initial angular velocities, spans of time, step lengths up to 1, exact solvers", "why_tests_cant": "convergence is a statement about all step lengths; a wrong moment of inertia about the pivot or a wrong sign of the arm gives another pendulum that looks as plausible", "anchors": ["lcp_physics/physics/constraints.py:Joint", "lcp_physics/physics/world.py:World.step_dt", "lcp_physics/physics/engines.py:PdipmEngine.solve_dynamics", "lcp_physics/physics/bodies.py:Body.move", "lcp_physics/physics/forces.py:Gravity"]}
{"id": "C127", "title": "Constraints in double precision: the anchor of a joint keeps its distance for ever, and turns with the body up to the rounding of the angles; undone steps leave no trace", "statement": "Constructor, move and update_pos of the constraints with every operation rounded to nearest (any tie rule), sine and cosine accurate to 2^-52, arc tangent to 2^-51. The velocities, contacts, engine and tolerances are arbitrary. (1) After a step with any number of undone attempts (world.py:101-107) poses, velocities and constraints are exactly those of a single attempt with the accepted length, apart from rot2, which is not restored and nothing reads. (2) A Joint made at a point at the distance L from the body's centre stores a distance and an angle that give this point up to 28*2^-53 L. (3) Its stored angle follows the body's: after n steps, with angles of at most B >= 1 throughout, the differences to the start differ by at most n (4*2^-53 B + 2^-1072). (4) Its anchor is at the stored distance from the centre up to 8*2^-53 of it, however long the run; it is where the body's angle turns the original point up to (6 n B + 40) 2^-53 L. For a million steps, 1000 radians, L < 100 this is below 1e-4. (5) The two ends of a joint of two bodies are the same point up to the rounding of a sum and a difference. (6) The anchor of a FixedJoint is exactly the centre of its first body. Without rounding the model is that of the other properties.", "quantifier": "all constraints, bodies, step lengths, velocities, numbers of undone attempts, lengths of runs, roundings to nearest", "why_tests_cant": "drift over a long run is below the tolerances of short tests; whether undone attempts leave traces shows only when steps are rejected", "anchors": ["lcp_physics/physics/constraints.py:Joint", "lcp_physics/physics/constraints.py:FixedJoint", "lcp_physics/physics/constraints.py:TotalConstraint", "lcp_physics/physics/world.py:World.step_dt", "lcp_physics/physics/utils.py:cart_to_polar", "lcp_physics/physics/utils.py:polar_to_cart"]}
{"id": "C128", "title": "A ball bouncing under its weight: the quantity the method conserves, what cut steps add to it, and when the ball comes to rest", "statement": "A ball over a level floor with gravity g, height y of its lowest point, downward speed u, steps of length h, restitution e. Let M = u^2/2 + g y + g h u/2. (1) In every step that lasts d <= h, M grows by g (h-d) u', u' being the speed after the step, which is positive if d < h; a bounce takes (1-e) u ((1+e) u + g h)/2 from it; nothing else changes it. (2) With e = 1, M after any number of steps is M at the start and the sum of what the cut steps added, each amount not negative; without cut steps it is conserved for ever, through all bounces. (3) A ball dropped from rest on a floor with e = 1 rises above its starting height whenever a step on the way was cut, by at least the way (h-d) u' that the cut step did not go. (4) A slow ball: if h W <= eps + tol, where W is the greatest speed with which a ball of the energy max(M, g eps + 3/8 (g h)^2) comes down to the contact distance eps, then no step is ever cut, the clock is that of whole steps, the ball never gets below eps - h W, and energy and height stay bounded for ever, for all 0 <= e <= 1. (5) If also e < 1, then from some step on the ball is not higher than g h^2/2 above the contact distance: it comes to rest up to the step length. Such runs exist, of any length.", "quantifier": "all balls, floors, gravities, restitutions, step lengths, contact distances, tolerances, starting heights and speeds, lengths of runs, exact solvers", "why_tests_cant": "each run shows a plausible bounce; that the energy gain comes from the cut steps alone, and that it vanishes for slow balls however long the run, are statements about all runs", "anchors": ["lcp_physics/physics/world.py:World.step_dt", "lcp_physics/physics/engines.py:PdipmEngine.solve_dynamics", "lcp_physics/physics/bodies.py:Body.move", "lcp_physics/physics/contacts.py:DiffContactHandler.__call__", "lcp_physics/physics/forces.py:Gravity"]}
{"id": "C129", "title": "Two free discs: at most one impact, short steps miss no hit, near misses count as hits, fast discs pass through each other", "statement": "Two discs without friction, forces and constraints in a strict world without post-stabilization; q and v are position and velocity of the first as seen from the second, R the sum of the radii, e the mean restitution. (1) In a step the velocities change only if |q| <= R + eps and q.v < 0; then each disc gets the textbook impulse along the line of centres; spins never change. (2) In a run of any length there is at most one such change; until then and from then on the discs fly freely by the clock of the world; momentum is conserved and the centre of mass moves uniformly. (3) The square of the relative speed goes from v^2 to v^2 - (1 - e^2)(v^2 - L^2/rho^2), with L = q x v and R - tol <= rho <= R + eps, where Newton has rho = R; a head-on impact gives exactly -e v. (4) If the discs come nearer and (|v| dt)^2 + b^2 <= (R + eps)^2, where b is the distance at which the centres would pass, then the impact happens, before the centres pass, within a bounded number of steps. (5) This includes R < b < R + eps: discs that never touch change their velocities. (6) If the discs are farther apart than R + eps at the end of every step of free flight, they fly freely, whatever happens in between: a disc that moves by 20 in a step passes through another one in the middle of its way. Such runs exist, of any length.", "quantifier": "all masses, radii, restitutions, positions, velocities, step lengths, contact distances, tolerances, lengths of runs, exact solvers", "why_tests_cant": "a test sees one collision; the condition on the step under which no collision is missed, and that none is repeated, range over all positions and speeds", "anchors": ["lcp_physics/physics/world.py:World.step_dt", "lcp_physics/physics/contacts.py:DiffContactHandler.__call__", "lcp_physics/physics/engines.py:PdipmEngine.solve_dynamics", "lcp_physics/physics/world.py:World.restitutions"]}
{"id": "C130", "title": "The clock of a strict world of discs keeps running: shortened steps do not add up to a finite time, if eps + tol > 0", "statement": "A strict step is halved until no discs overlap by more than tol, and run_world goes on until the time is reached; nothing in the code bounds the number of steps. (1) A step whose new velocities (all at most V) take no contact nearer lasts the whole dt or more than (eps + tol)/(4 V), and is found within n + 1 attempts if 2 V dt/2^n <= eps + tol. (2) In a world of discs of any number, with zero restitution, any friction, any constraints with which the engine answers, and forces of bounded size, run_world reaches every time T; the number of steps and attempts is finite although a shortened step applies the forces of a whole one, so that the speed may grow with the number of steps and not with the time. (3) Without forces N steps advance the clock by at least N min(dt, (eps + tol)/(4 V)), V being a speed bound at the start. (4) Without constraints and with an exact solver the engine always answers. (5) eps + tol > 0 is needed: with eps = tol = 0, which the constructor accepts, two discs that meet at a time that is not a binary fraction of dt are never seen to touch: every step returns, the steps become shorter and shorter, and run_world never ends; an example are two unit discs at the distance 7/3, dt = 1 and speed 1.", "quantifier": "all numbers of discs, masses, radii, frictions, bounded forces, step lengths, times, exact solvers", "why_tests_cant": "that a loop ends for all worlds, and that another never does, cannot be seen from finitely many runs; a run that stalls shows only as a slow test", "anchors": ["lcp_physics/physics/world.py:run_world", "lcp_physics/physics/world.py:World.step_dt", "lcp_physics/physics/world.py:World.__init__", "lcp_physics/physics/engines.py:PdipmEngine.solve_dynamics", "lcp_physics/physics/contacts.py:DiffContactHandler.__call__"]}
{"id": "C131", "title": "Masses and restitution from a collision of two discs: the loss has one minimum, only the ratio of the masses can be learnt, gradient descent finds it", "statement": "Two frictionless discs in a strict world; one run is observed, another has other masses and another restitution but starts alike. (1) Until the impact the runs are the same; the impact happens in both or in none, in the same step, at the same time and place; the clocks agree for ever, so that both record the same number of rows. (2) The loss of inference.py (positions_run_world and the mean square of lines 55-60) is K times (s0 - s0')^2 + (s1 - s1')^2, where s0 = m1/(m0+m1) (1+e) and s1 = m0/(m0+m1) (1+e) are the shares of the impulse; K depends on the observed run only, and is positive as soon as the observed discs have struck. (3) So the loss is zero exactly if the restitutions and the ratios of the masses agree: the masses themselves cannot be learnt. (4) If one mass is known, the loss as a function of the other falls strictly before the true mass and rises strictly behind it, its derivative is c (m - m*)/(m + m1)^3, of the right sign everywhere, and of the order 1/m^2 for heavy guesses. (5) Gradient descent m - eta L'(m) with eta c <= m1^3 converges to the true mass from every positive start, without leaving the interval between start and truth, with a rate of 1 - eta c/(max(m, m*) + m1)^3 at worst. (6) With known masses the loss is a parabola in the restitution.", "quantifier": "all masses, restitutions, positions, velocities, step lengths, tolerances, durations, exact solvers", "why_tests_cant": "that a loss has no false minimum is a statement about all guesses; that the moment of impact does not depend on the masses is a statement about all runs", "anchors": ["experiments/inference.py:positions_run_world", "experiments/inference.py:main", "lcp_physics/physics/world.py:World.step_dt", "lcp_physics/physics/engines.py:PdipmEngine.solve_dynamics", "lcp_physics/physics/world.py:World.restitutions"]}
{"id": "C132", "title": "Worlds of discs that allow penetration: how deep discs can get, and that what has sunk in stays in and slows the world down", "statement": "With strict_no_pen = False a step is halved until it is shorter than dt/4 and then taken whatever it does. (1) If the new velocities (all at most V) take no contact nearer, a step of a world of discs returns after at most four attempts, lasts between dt/8 and dt, and leaves no pair deeper than the greatest of: the depth before, tol, and V dt/4 - eps. (2) With zero restitution, any friction, any constraints and forces of bounded size this holds along runs: in N steps no pair gets deeper than the starting depth, tol, or V dt/4 - eps with the speed bound V = (A + N dt F)/sqrt m; without forces V is constant and the bound holds for ever. So at speeds with V dt <= 4 (eps + tol) a world that is not strict is as good as a strict one. Without constraints and with an exact solver such runs exist. (3) Two discs without friction: velocities change as in the textbook; the length of the step is the first of dt, dt/2, dt/4, dt/8 that leaves them no deeper than tol, or dt/8. (4) There is no force that pushes discs apart: two discs without restitution that are deeper in each other than tol and meet head on keep exactly this depth for ever; and since every attempt with the old depth is refused, every later step of the whole world lasts dt/8. (5) With the default constants a unit disc of speed 120 sinks 0.3 into another one in the first step and then stays there, with the clock at k/240 after k steps instead of k/30.", "quantifier": "all numbers of discs, masses, radii, frictions, forces, step lengths, contact distances, tolerances, lengths of runs, exact solvers", "why_tests_cant": "a bound of the depth over all runs cannot be sampled; that the world runs at an eighth of its pace does not show in positions, and steps are not counted by any test", "anchors": ["lcp_physics/physics/world.py:World.step_dt", "lcp_physics/physics/world.py:World.__init__", "lcp_physics/physics/contacts.py:DiffContactHandler.__call__", "lcp_physics/physics/engines.py:PdipmEngine.solve_dynamics"]}
{"id": "C133", "title": "A wheel on a floor, pulled and driven: when it rolls, when it spins, and how fast it gets", "statement": "A round body lies on a level floor under a constant force: weight m g, a pull m a along the floor (a rope at the axle, or the part of the weight along a slope that is called level) and a torque tau. Along whole runs with an exact solver and the library's contact search: (1) if it rolls at first and |a - 2 tau/(m r)| <= 3 mu g it never slips; its acceleration is 2/3 (a + tau/(m r)), and after k steps it has gone k dt u + k(k+1)/2 dt^2 times that. So it rolls down slopes up to 3 mu, and a spool that is pulled at its axle and unwound goes in the direction of a + tau/(m r). (2) If the pull or the torque is stronger, it slips faster and faster, the slip grows by (|a - 2 tau/(m r)| - 3 mu g) dt per step, and the floor gives it the acceleration mu g against the slip, however strong the motor. (3) Whatever the slip at first, in case (1) it decreases by at least (3 mu g - |a - 2 tau/(m r)|) dt per step until it is zero. (4) The ball stays on the floor, neither lifted nor sinking in, no step is cut, and such runs exist for any number of steps for which the floor is long enough.", "quantifier": "all radii, masses, frictions, restitutions, pulls, torques, weights, starting velocities and spins, step lengths, numbers of steps, exact solvers", "why_tests_cant": "the border between rolling and spinning is a statement about all forces; tests of the demos do not look at velocities at all", "anchors": ["lcp_physics/physics/world.py:World.step_dt", "lcp_physics/physics/world.py:World.Jf", "lcp_physics/physics/world.py:World.mu", "lcp_physics/physics/engines.py:PdipmEngine.solve_dynamics", "lcp_physics/physics/contacts.py:DiffContactHandler.__call__"]}
{"id": "C134", "title": "The contact of two circles in double precision", "statement": "Let two circles have centres and radii that are double precision numbers and let every operation round to nearest. (1) A contact is reported when the gap is below eps and not reported when it is above, except within 7 2^-53 (r1 + r2 + distance) + 2^-530 of eps; its penetration is that of C123. (2) Unless the centres are closer than 2^-470 the reported normal differs from the unit vector from the second centre to the first by at most 15 2^-53 and nothing is divided by zero. (3) The two reported points, added to their centres, both lie within 18 2^-53 (r1 + r2 + distance) of the middle between the two facing points of the circles, so within 36 2^-53 (r1 + r2 + distance) of one another. (4) Different centres closer than 2^-538 in each coordinate have a computed distance of zero: the contact is reported and its direction is a division by zero. (5) Without rounding the computation is the contact of the exact model. (6) Along every run of a strict world of circles whose radii add up to at least 2 tol and 2^-460 for each pair that may touch, whatever the velocities, no contact is a division by zero and (2) and (3) hold for all of them.", "quantifier": "all radii and centres of double precision, all roundings to nearest", "why_tests_cant": "bounds that hold for every pair of doubles; the division by zero for different centres needs numbers no test would choose", "anchors": ["lcp_physics/physics/contacts.py:DiffContactHandler.__call__"]}
{"id": "C135", "title": "Free flight in double precision, engine included", "statement": "Let every operation round to nearest and let a body have neither constraints nor contacts. (1) Without rounding the modelled computation is the answer of the engine. (2) The velocity the engine answers differs from v + dt f / m by at most 5 2^-53 (|v| + |dt f| / m) + (4/m + 1) 2^-1074, for masses (or angular inertias) up to 2^1000. (3) With mass one a velocity is the old one plus the rounded impulse, rounded once, and without a force it is kept exactly. (4) With other masses it need not be: a body of mass 49 at speed one on which no force acts has speed 1 - 2^-53 after one step. (5) After n steps velocities and poses differ from those of exact arithmetic by at most n e and n (d + dt n e), with e the bound of (2) for the greatest velocity and d a few units in the last place of the greatest coordinate. (6) In a strict world of circles among which the broad phase sees no pair n calls of step return, each at the first attempt, and move the bodies like this.", "quantifier": "all masses, forces, velocities, step lengths and numbers of steps, all roundings to nearest", "why_tests_cant": "bounds over all runs; that a free body may lose speed shows only for some masses", "anchors": ["lcp_physics/physics/engines.py:PdipmEngine.solve_dynamics", "lcp_physics/physics/bodies.py:Body.move", "lcp_physics/physics/world.py:World.step_dt", "lcp_physics/physics/world.py:World.apply_forces"]}
{"id": "C136", "title": "The recorder in double precision: one frame is lost with the default step length", "statement": "Let every operation round to nearest. (1) Frames are numbered consecutively from zero, at most one for each step. (2) Let the recorder have the step length of the world, as in all uses the repository suggests, and let no step be shortened. As long as the computed difference of successive times does not fall short of the step length there is a frame for every step; at the first step where it does no frame is written; afterwards one is written at every step again, so that the film stays one frame behind (up to 2^51 steps). (3) With the default step length 1/30 this happens among the first four steps: after n >= 4 steps there are n - 1 frames; without rounding there would be n. (4) It never happens as long as the multiples of the step length are double precision numbers, for example with 1/64. (5) With steps of any lengths not above the recorder's interval, F frames after n steps satisfy F rdt - 6 n T 2^-53 <= t <= (F + 1) rdt + 6 n T 2^-53, T a bound for the times.", "quantifier": "all step lengths, all sequences of shortened steps, all numbers of steps up to 2^51, all roundings to nearest", "why_tests_cant": "the comparison depends on the last bit of a difference; a lost frame is not noticed in a film", "anchors": ["lcp_physics/physics/utils.py:Recorder.record", "lcp_physics/physics/world.py:run_world", "lcp_physics/physics/world.py:World.step_dt"]}
{"id": "C137", "title": "How long runs and pushes last in double precision", "statement": "Let every addition round to nearest. (1) Between two powers of two the clock advances by a constant: the step length rounded to the distance of the double precision numbers there. (2) With the default step length 1/30 run_world makes 301 steps for the default ten seconds and 211 for the seven of grad_demo, one more each than with exact steps, and 600 and 1200 for the twenty and forty of the demos, as many as with exact steps. (3) A film of ten seconds has 300 frames. (4) The push of the friction demo between the times 1 and 2 acts in the steps from the times number 31 to 59, as with exact steps. (5) The impulses that act before time 0.1 act in the first three steps with ties rounded to even; the third time lies half way between two doubles, and a rounding that broke this tie downwards would make it four. (6) With exact steps of 1/30 a run of T seconds has 30 T steps.", "quantifier": "all roundings to nearest; (1) for all step lengths; (4), (5) for all steps of a run", "why_tests_cant": "tests compare neither the number of steps nor the times with exact ones", "anchors": ["lcp_physics/physics/world.py:run_world", "lcp_physics/physics/world.py:World.step_dt", "lcp_physics/physics/forces.py:hor_impulse", "lcp_physics/physics/forces.py:vert_impulse", "lcp_physics/physics/forces.py:rot_impulse", "demos/demo.py:fric_demo", "demos/grad_demo.py:grad_demo"]}
{"id": "C138", "title": "Forces in double precision", "statement": "Let every operation round to nearest. (1) Without rounding the modelled computation is that of C56. (2) The total force on a body to which n objects are attached differs in every component from the sum of the forces they stand for by at most ((1 + 2^-53)^(n+1) - 1) W + (1 + 2^-53)^n n 2^-1074, W the sum of their sizes. (3) A body under its weight alone feels the rounded product of its mass and g. (4) In a step such a body gains the velocity dt g whatever its mass, up to 7 2^-53 (|v| + |dt g|) + ((4 + 2 |dt|) / m + 1) 2^-1074. (5) Two forces may be attached in either order, with the same result to the last bit. (6) Three may not: two forces of 3 2^-55 next to a force of one are lost when attached after it and count when attached before it.", "quantifier": "all lists of forces, times, masses up to 2^1000, all roundings to nearest", "why_tests_cant": "bounds over all forces; the order of attaching shows only in the last bit", "anchors": ["lcp_physics/physics/forces.py:ExternalForce", "lcp_physics/physics/forces.py:Gravity", "lcp_physics/physics/bodies.py:Body.apply_forces", "lcp_physics/physics/bodies.py:Body.add_force", "lcp_physics/physics/world.py:World.apply_forces"]}
{"id": "C139", "title": "A body without forces in double precision settles to a velocity", "statement": "Let every operation round to nearest, and let no force, constraint or contact act on a body. (1) The order of velocities is kept: of two bodies of the same mass under the same force the faster stays at least as fast. (2) A component of the velocity below a power of two stays below it, for masses up to 2^1000. (3) A nonnegative component only falls or only rises along a run, and from some step on does not change any more. (4) So a body that moves and turns in the positive directions settles to a velocity: by C135 a small change is possible, but there is no friction for ever.", "quantifier": "all masses up to 2^1000, velocities, numbers of steps, all roundings to nearest", "why_tests_cant": "a statement on all steps of runs of any length", "anchors": ["lcp_physics/physics/engines.py:PdipmEngine.solve_dynamics", "lcp_physics/physics/world.py:World.step_dt"]}
{"id": "C140", "title": "Moments of inertia in double precision", "statement": "Let every operation round to nearest, and let mass, radius and sides lie between 2^-200 and 2^200. (1) The computed moment of inertia of a circle differs from mass*rad^2/2 by at most 4*2^-53 of it, and that of a rectangle from mass*(a^2+b^2)/12 by at most 6*2^-53 of it. (2) Both are positive. (3) The one of a circle is at most 2^1000, as C135 and C139 ask.", "quantifier": "all masses, radii and sides between 2^-200 and 2^200, all roundings to nearest", "why_tests_cant": "a statement on all floating-point inputs of a range; a test compares a few with a tolerance", "anchors": ["lcp_physics/physics/bodies.py:Circle._get_ang_inertia", "lcp_physics/physics/bodies.py:Rect._get_ang_inertia"]}
{"id": "C141", "title": "The moment of inertia of a hull in double precision", "statement": "Let every operation round to nearest, and let the mass lie between 2^-200 and 2^200. (1) Let the computed cross products of the n edges be zero or between 2^-200 and 2^200, not all zero, whatever errors they carry, and let the computed sums of dot products of the edges lie between lo >= 2^-200 and hi. Then the computed moment of inertia of a Hull lies between mass/6*lo and mass/6*hi, up to a relative error of (3n+5)*2^-52, for n up to a million: errors of the cross products do not matter for this, since the same numbers stand in numerator and denominator. (2) So it is positive. (3) It is enough that the true sums of dot products of the edges, of the vertices as they are stored, lie between lo >= 2^-199 and hi, with (3n+15) in place of (3n+5). (4) If all coordinates of the vertices are at most 2^-538 in size, numerator and denominator are both computed as zero, and the formula gives no number.", "quantifier": "all numbers of edges up to a million, all cross and dot products of the ranges, all masses, all roundings to nearest", "why_tests_cant": "a statement on all floating-point inputs of a range and all numbers of edges", "anchors": ["lcp_physics/physics/bodies.py:Hull._get_ang_inertia", "lcp_physics/physics/utils.py:cross_2d"]}
{"id": "C142", "title": "The test for the order of the vertices in double precision", "statement": "Let every operation of Hull._is_clockwise round to nearest. (1) For n <= 1000000 vertices with coordinates of at most R >= 1 in size, the computed total differs from the true one by at most (2n^2+17n)*2^-53*R^2; so the test gives the right answer whenever the true total is further from zero. (2) No list of vertices with coordinates of at most 2^-540 passes the test. (3) So a Hull may have its vertices in the right order and be refused by the assertion: the square with half side 2^-540.", "quantifier": "all lists of up to a million vertices, all sizes, all roundings to nearest", "why_tests_cant": "a statement on all floating-point inputs and all numbers of vertices", "anchors": ["lcp_physics/physics/bodies.py:Hull._is_clockwise", "lcp_physics/physics/bodies.py:Hull.__init__"]}
